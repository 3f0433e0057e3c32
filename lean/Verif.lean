import Verif.Csr.Props
import Verif.CsrSet.Props
import Verif.XStatus.Props
import Verif.Xip.Props
import Verif.Hart.Interrupt
import Verif.Hart.Trap
import Verif.Zicsr.Props
import Verif.Counter.Props
import Verif.Clint.Props
import Verif.Plic.Props
import Verif.Alu.Props
import Verif.MulDiv.Props
import Verif.Bitmanip.Props
import Verif.Control.Props
import Verif.Mem.Props
import Verif.Atomic.Props
import Verif.FpHost.Props
import Verif.FpState.Props
import Verif.NaNBox.Props
import Verif.FpClass.Props
import Verif.FpConvert.Props
import Verif.HalfFp.Props
import Verif.HalfFp.Narrow
import Verif.Zcmp.Props
import Verif.VecState.Props
import Verif.VecLoop.Props
import Verif.VecFixed.Exec
import Verif.VecMask.Props
import Verif.VecMem.Segment
import Verif.ActionPoint.Props
import Verif.RunLoop.Props
import Verif.BranchTrace.Props
import Verif.DebugMem.Props
import Verif.Dispatch.Props
import Verif.Encoding.Text
import Verif.Decode.IsaProps
import Verif.FpFma.Violated
import Verif.FpArith.Props
import Verif.VecCvt.Props
import Verif.VecEst.Props
import Verif.VecRed.Props
import Verif.VecFp.Props
import Verif.Getters.Props
import Verif.Operands.Props
import Verif.Described.Props
import Verif.FpMem.Props
import Verif.VecPerm.Props
import Verif.VecMove.Props
import Verif.VecScan.Props
import Verif.VecInt.Props
import Verif.VecBits.Props
import Verif.CsrFile.Props
import Verif.CsrFile.Warl
import Verif.Semihost.Props
import Verif.Semihost.More
import Verif.Htif.Props
import Verif.DebugReg.Props
import Verif.VecWiden.Props
import Verif.HalfArith.Props
import Verif.FpCvt.Props
import Verif.Fetch.Props
import Verif.Setup.Props
import Verif.Reloc.Props
import Verif.Halt.Props
import Verif.Watch.Props
import Verif.HalfCmp.Props
import Verif.Shell.Props
import Verif.ShellMem.Props
import Verif.ShellVec.Props
import Verif.ShellWatch.Props
import Verif.ShellAction.Props
import Verif.ShellInput.Props
import Verif.TraceList.Props
import Verif.Exec.Props
import Verif.Exec.PropsB
import Verif.PlicBus.Props
import Verif.Exec.PropsS
import Verif.Exec.PropsZ
import Verif.Exec.PropsY
import Verif.Exec.PropsI
import Verif.Exec.PropsF
import Verif.FpFlags.Props
import Verif.Exec.PropsA
import Verif.Exec.PropsV
import Verif.Exec.PropsK
import Verif.Exec.PropsN
import Verif.Exec.PropsP
import Verif.Exec.PropsQ
import Verif.Stats.Props
import Verif.Renode.Props
import Verif.Renode.Caches
import Verif.Exec.PropsW
import Verif.Inspect.Props
import Verif.Exec.PropsX
import Verif.Exec.PropsVa
import Verif.Exec.PropsVw
import Verif.Exec.PropsVm
import Verif.Exec.PropsVk
import Verif.Exec.PropsVr
import Verif.Exec.PropsVl
