import Verif.Model.Rme
import Verif.Model.DebugPrint
import Verif.Model.Testkern
import Verif.Model.Nativetest
import Verif.Spec.Machine
import Verif.Spec.Arith
import Verif.Spec.Operand
import Verif.Spec.Encode
import Verif.Spec.Stack
import Verif.Spec.Jump
import Verif.Lemmas.Exec
import Verif.Lemmas.Reg
import Verif.Lemmas.Mem
import Verif.Lemmas.Decode
import Verif.Lemmas.Demo
import Verif.Lemmas.Alu
import Verif.Lemmas.Alu2
import Verif.Lemmas.Sbb
import Verif.Lemmas.Shift
import Verif.Lemmas.Operand
import Verif.Lemmas.AluStep
import Verif.Lemmas.AluStep2
import Verif.Lemmas.Stack
import Verif.Lemmas.Kp
import Verif.Lemmas.KpOps
import Verif.Lemmas.Shape
import Verif.Lemmas.KpAll
import Verif.Spec.Run
import Verif.Lemmas.Step
import Verif.Lemmas.Bytes
import Verif.Props.Memory
import Verif.Props.Support
import Verif.Props.Arith
import Verif.Props.Global
import Verif.Lemmas.Ready
import Verif.Props.Confine
import Verif.Props.Confine2
import Verif.Spec.Effects
import Verif.Lemmas.Frame
import Verif.Lemmas.FrameOps
import Verif.Props.Frame
import Verif.Props.Atomic
import Verif.Lemmas.Interrupt
import Verif.Props.MulDiv
import Verif.Props.Shift
import Verif.Props.Jump
import Verif.Spec.Move
import Verif.Props.Move
import Verif.Spec.Flags
import Verif.Props.Flags
import Verif.Spec.PushPop
import Verif.Lemmas.Code
import Verif.Lemmas.Conc
import Verif.Props.Stack
import Verif.Props.Stack2
import Verif.Spec.Call
import Verif.Props.Call
import Verif.Props.Call2
import Verif.Props.Enter
import Verif.Props.Int
import Verif.Props.Int2
import Verif.Props.Runaway
import Verif.Spec.Decimal
import Verif.Props.Decimal
import Verif.Spec.Strings
import Verif.Props.Strings
import Verif.Props.StringsIO
import Verif.Spec.EA
import Verif.Lemmas.EA
import Verif.Props.EA
import Verif.Props.EA32
import Verif.Props.LoadMisc
import Verif.Props.Shxd
import Verif.Props.NoUB
import Verif.Spec.Relocate
import Verif.Lemmas.Rl
import Verif.Lemmas.RlOps
import Verif.Props.TwoRuns
import Verif.Spec.Length
import Verif.Lemmas.Len
import Verif.Lemmas.LenOps
import Verif.Lemmas.Seq
import Verif.Lemmas.Seq2
import Verif.Props.Sequential
import Verif.Model.Bios
import Verif.Spec.Bios
import Verif.Props.Bios
import Verif.Props.Boot
import Verif.Props.Disk
import Verif.Props.Console
import Verif.Model.DosExe
import Verif.Spec.DosExe
import Verif.Props.DosExe
import Verif.Model.Main
import Verif.Spec.Main
import Verif.Props.Config
import Verif.Props.Main
import Verif.Props.Stack3
import Verif.Props.CpuType
import Verif.Props.KernMem
import Verif.Props.KernPrint
import Verif.Props.Cmpmem
import Verif.Props.Strings32
import Verif.Props.StringsFail
import Verif.Model.Mini
import Verif.Spec.Mini
import Verif.Props.Mini
import Verif.Model.KernMain
import Verif.Props.KernMain
import Verif.Props.Create
import Verif.Lemmas.Sbb2
import Verif.Props.Exact
import Verif.Props.Exact2
import Verif.Props.Trace
import Verif.Props.Sources
import Verif.Props.Video
import Verif.Props.OperandText
import Verif.Lemmas.RepKeep
import Verif.Props.Mnemonic
import Verif.Props.ImmText
import Verif.Props.ImmText2
import Verif.Props.StringText
import Verif.Props.RmText
import Verif.Props.RmText2
