import Verif.Encoding.Spec

/-! # The CSR names of the assembler against the architecture's addresses -/

namespace Verif.Encoding

open Spec

theorem csr_names_agree : namesCsrRegister.all (fun p =>
    p.1 == "mnstatus" || (csrs.lookup p.1).all (· == p.2)) = true := by
  decide +kernel

end Verif.Encoding
