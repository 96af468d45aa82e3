import Verif.Spec.Network
import Verif.Model.Unwind
import Verif.Model.UnwindRun

/-! # Histories of networks in programs that catch panics -/

namespace Rusty.Spec

variable {F : Type} [F32Ops F]

/-- one call on a network that ends in any way: it returns `Ok`, returns `Err` or panics and the caller catches the
panic.  The arguments are arbitrary. -/
inductive Attempts (b : Build) : Net F → Net F → Prop
  | infer (n x) : Attempts b n (Network.infer_u b x n).2
  | backward (n g) : Attempts b n (Network.backward_u b g n).2
  | switch_to_training (n) : Attempts b n (Network.switch_to_training_u b n).2
  | switch_to_inference (n) : Attempts b n (Network.switch_to_inference_u b n).2

/-- a finite sequence of such calls -/
inductive AttemptsMany (b : Build) : Net F → Net F → Prop
  | none (n) : AttemptsMany b n n
  | more (n n' n'') : AttemptsMany b n n' → Attempts b n' n'' → AttemptsMany b n n''

/-- a finite sequence of calls of `infer`, with any argument, and of `backward`, with a well formed gradient, that end
in any way -/
inductive TrainingAttempts (b : Build) : Net F → Net F → Prop
  | none (n) : TrainingAttempts b n n
  | infer (n n' x) : TrainingAttempts b n n' → TrainingAttempts b n (Network.infer_u b x n').2
  | backward (n n' g) : TrainingAttempts b n n' → g.WF → TrainingAttempts b n (Network.backward_u b g n').2

end Rusty.Spec
