import Verif.Decode.Decoders
import Verif.Decode.Isa

/-!
# Numbers of the instructions of each group

The position in `Op` of the ISA instruction each entry stands for, computed by
`tools/gen_decode.py` and checked by the kernel.
-/

namespace Verif.Decode

/-- The numbers of the entries of a group. -/
def Grp.codes : Grp → List Nat
  | .riscv32g_RiscVIInstBase32 =>
    [0, 1, 2, 2, 4, 4, 6, 7, 8, 9, 10, 11, 12, 13, 14, 15,
     16, 17, 18, 19, 20, 20, 22, 23, 24, 25, 26, 27, 28, 29, 30, 31,
     32, 33, 34, 35, 36, 37, 38, 39, 40, 41, 42, 43]
  | .riscv32g_RiscVIHints32 =>
    [0, 1, 20, 20, 22, 23, 24, 25, 26, 28, 33, 27, 27, 27, 29, 29,
     29, 30, 30, 30, 31, 32, 34, 35, 36, 37, 38, 39, 40, 40, 40, 40,
     40, 40, 40]
  | .riscv32g_RiscVZifenceiInst32 =>
    [44]
  | .riscv32g_RiscVZicsrInst32 =>
    [45, 46, 47, 46, 47, 45, 46, 47, 53, 54, 55, 54, 55, 53, 54, 55,
     45]
  | .riscv32g_RiscVMInst32 =>
    [62, 63, 64, 65, 66, 67, 68, 69]
  | .riscv32g_RiscVAInst32 =>
    [70, 71, 72, 73, 74, 75, 76, 77, 78, 79, 80]
  | .riscv32g_RiscVFInst32 =>
    [81, 82, 83, 84, 85, 86, 87, 88, 89, 90, 91, 92, 93, 94, 95, 96,
     97, 98, 99, 100, 101, 102, 103, 104, 105, 106]
  | .riscv32g_RiscVDInst32 =>
    [107, 108, 109, 110, 111, 112, 113, 114, 115, 116, 117, 118, 119, 120, 121, 122,
     123, 124, 125, 126, 127, 128, 129, 130, 131, 132]
  | .riscv32g_RiscVPrivInst32 =>
    [133, 134, 135, 136, 140, 140, 140, 140]
  | .riscv32g_RiscVCInstBase16 =>
    [176, 177, 178, 179, 180, 181, 182, 183, 184, 185, 186, 187, 188, 189, 190, 191,
     192, 193, 194, 195, 196, 197, 198, 199, 200, 201, 202, 203, 204, 205, 206, 207,
     208, 209, 210, 211]
  | .riscv32g_RiscVCHints16 =>
    [183, 184, 186, 188, 204, 199, 207]
  | .riscv32zb_RiscVZbaInst32 =>
    [219, 220, 221]
  | .riscv32zb_RiscVZbbInst32 =>
    [222, 223, 224, 225, 226, 227, 228, 229, 230, 231, 232, 233, 234, 235, 236, 237]
  | .riscv32zb_RiscVZbbInst32Only =>
    [238]
  | .riscv32zb_RiscVZbbImmInst32 =>
    [239]
  | .riscv32zb_RiscVZbcInst32 =>
    [240, 241, 242]
  | .riscv32zb_RiscVZbsInst32 =>
    [243, 244, 245, 246]
  | .riscv32zb_RiscVZbsImmInst32 =>
    [247, 248, 249, 250]
  | .riscv_vector_RiscVVInst32 =>
    [307, 307, 307, 310, 311, 311, 311, 314, 315, 316, 317, 314, 315, 316, 317, 322,
     323, 324, 325, 326, 327, 328, 329, 330, 331, 332, 333, 334, 335, 336, 337, 338,
     339, 340, 341, 342, 343, 344, 345, 346, 347, 348, 349, 350, 351, 352, 353, 354,
     355, 356, 357, 358, 359, 360, 361, 362, 363, 364, 365, 366, 367, 368, 369, 370,
     371, 372, 373, 374, 375, 376, 377, 378, 379, 380, 381, 382, 383, 384, 385, 386,
     387, 388, 389, 390, 391, 392, 393, 394, 395, 396, 397, 398, 399, 400, 401, 402,
     403, 404, 405, 406, 407, 408, 409, 410, 411, 412, 413, 414, 415, 416, 417, 418,
     419, 420, 421, 422, 423, 424, 425, 426, 427, 428, 429, 430, 431, 432, 433, 434,
     435, 436, 437, 438, 439, 440, 441, 442, 443, 444, 445, 446, 447, 448, 449, 450,
     451, 452, 453, 454, 455, 456, 457, 458, 459, 460, 461, 462, 463, 464, 465, 466,
     467, 468, 469, 470, 471, 472, 473, 474, 475, 476, 477, 478, 479, 480, 481, 482,
     483, 484, 485, 486, 487, 488, 489, 490, 491, 492, 493, 494, 495, 496, 497, 498,
     499, 500, 501, 502, 503, 504, 505, 506, 507, 508, 509, 510, 511, 512, 513, 514,
     515, 516, 517, 518, 519, 520, 521, 522, 523, 524, 525, 526, 527, 528, 529, 530,
     531, 532, 533, 534, 535, 536, 537, 538, 539, 540, 541, 542, 543, 544, 545, 546,
     547, 548, 549, 550, 551, 552, 553, 554, 555, 556, 557, 558, 559, 560, 561, 562,
     563, 564, 565, 566, 567, 568, 569, 570, 571, 572, 573, 574, 575, 576, 577, 578,
     579, 580, 581, 582, 583, 584, 585, 586, 587, 588, 589, 590, 591, 592, 593, 594,
     595, 596, 597, 598, 599, 600, 601, 602, 603, 604, 605, 606, 607, 608, 609, 610,
     611, 612, 613, 614, 615, 616, 617, 618, 619, 620, 621, 622, 623, 624, 625, 626,
     627, 628, 629, 630, 631, 632, 633, 634, 635, 636, 637, 638, 639, 640, 641, 642,
     643, 644, 645, 646, 647, 648, 649, 650, 651, 652, 653, 654, 655, 656, 657, 658,
     659, 660, 661, 662, 663, 664, 665, 666, 667, 668, 669, 670, 671, 672, 673, 674,
     675, 676, 677, 678, 679, 680, 681, 682, 683, 684, 685, 686, 687, 688, 689, 690,
     691, 692, 693, 694, 695, 696, 697, 698, 699, 700, 701, 702, 703, 704, 705, 706,
     707, 708, 709, 710, 711, 712, 713, 714, 715, 716, 717, 718, 719, 720, 721, 722,
     723, 724, 725, 726, 727, 728, 729, 730, 731, 732, 733]
  | .riscv64g_RiscVGInstBase32 =>
    [0, 1, 2, 2, 4, 4, 6, 7, 8, 9, 10, 11, 12, 251, 13, 14,
     252, 15, 16, 17, 18, 19, 253, 20, 20, 254, 22, 23, 24, 25, 26, 27,
     28, 29, 255, 256, 257, 30, 258, 31, 259, 32, 260, 33, 34, 35, 36, 261,
     37, 262, 38, 39, 40, 41, 42, 43, 44, 62, 63, 64, 65, 66, 67, 68,
     69, 263, 264, 265, 266, 267, 70, 71, 72, 73, 74, 75, 76, 77, 78, 79,
     80, 268, 269, 270, 271, 272, 273, 274, 275, 276, 277, 278, 81, 82, 83, 84,
     85, 86, 87, 88, 89, 90, 91, 92, 93, 94, 95, 96, 97, 98, 99, 100,
     101, 102, 103, 104, 105, 106, 279, 280, 281, 282, 107, 108, 109, 110, 111, 112,
     113, 114, 115, 116, 117, 118, 119, 120, 121, 122, 123, 124, 125, 126, 127, 128,
     129, 130, 131, 132, 283, 284, 285, 286, 287, 288, 45, 46, 47, 46, 47, 45,
     46, 47, 53, 54, 55, 54, 55, 53, 54, 55, 45, 133, 134, 135, 136, 140,
     140, 140, 140]
  | .riscv64g_RiscVGHints32 =>
    [0, 1, 20, 20, 22, 23, 24, 25, 26, 28, 33, 27, 27, 27, 29, 29,
     29, 30, 30, 30, 31, 32, 34, 35, 36, 37, 38, 39, 40, 40, 40, 40,
     40, 40, 40]
  | .riscv64g_RiscVCInstBase16 =>
    [176, 177, 178, 289, 180, 181, 290, 183, 184, 291, 186, 187, 188, 189, 190, 191,
     192, 193, 194, 195, 292, 293, 196, 197, 198, 199, 200, 201, 294, 203, 204, 205,
     206, 207, 208, 209, 295, 211]
  | .riscv64g_RiscVCHints16 =>
    [183, 184, 186, 188, 204, 199, 207]
  | .riscv64zb_RiscVZbaInst64 =>
    [296, 297, 298, 299, 300]
  | .riscv64zb_RiscVZbbInst64 =>
    [301, 302, 303, 304, 239, 305, 306, 238]
  | .riscv64zb_RiscVZbsImmInst64 =>
    [247, 248, 249, 250]
  | .riscv_zfh32_RiscVZfh32Inst32 =>
    [734, 735, 736, 737, 738, 739, 740, 741, 742, 743, 744, 745, 746, 747, 748, 749,
     750, 751, 752, 753, 754, 755, 756, 757, 758, 759, 760, 761, 762, 763]
  | .riscv_zfh64_RiscVZfh64Inst32 =>
    [734, 735, 736, 737, 738, 739, 740, 741, 742, 743, 744, 745, 746, 747, 748, 749,
     750, 751, 752, 753, 754, 755, 756, 757, 758, 759, 760, 761, 762, 763, 764, 765,
     766, 767]
  | .riscv_zvbb_RiscVZvkbInst32 =>
    [768, 769, 770, 771, 772, 773, 774, 775, 776]
  | .riscv_zvbb_RiscVBasicBitInst32 =>
    [777, 778, 779, 780, 781, 782, 783]
  | .riscv_zicond_RiscVZicond =>
    [784, 785]
  | .riscv_zimop_RiscVZimop =>
    [786, 787, 788, 789, 790, 791, 792, 793, 794, 795, 796, 797, 798, 799, 800, 801,
     802, 803, 804, 805, 806, 807, 808, 809, 810, 811, 812, 813, 814, 815, 816, 817,
     818, 819, 820, 821, 822, 823, 824, 825]
  | .riscv_zhintpause_RiscVZhintpause =>
    [834]
  | .riscv_zihintntl_RiscVZihintntl =>
    [835, 836, 837, 838]
  | .riscv_zicbop_RiscVZicbop =>
    [843, 844, 845]
  | .riscv_zimop_RiscVZcmop =>
    [826, 827, 828, 829, 830, 831, 832, 833]
  | .riscv_zihintntl_RiscVCZihintntl =>
    [839, 840, 841, 842]
  | .riscv_zc_RiscVCZca =>
    [176, 178, 181, 183, 184, 185, 186, 187, 188, 189, 190, 191, 192, 193, 194, 195,
     196, 197, 198, 199, 201, 203, 204, 205, 206, 207, 209]
  | .riscv_zc_RiscVCZcf =>
    [179, 182, 202, 210]
  | .riscv_zc_RiscVCZcb32 =>
    [846, 847, 848, 849, 850, 851, 852, 853, 854, 855, 856]
  | .riscv_zc_RiscVCZcmp =>
    [858, 859, 860, 861, 862, 863]
  | .riscv_zc_RiscVCZcmt =>
    [864, 865]

theorem Grp.codes_eq (g : Grp) :
    (g.insts.map fun i => (Isa.canon i.op).ctorIdx) = g.codes := by
  cases g <;> decide +kernel

end Verif.Decode
