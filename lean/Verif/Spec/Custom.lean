import Verif.Spec.Tensor
import Verif.Model.Network

/-!
# Specification: networks of any layers

`Layer` is a public trait, so networks can hold layers the library knows nothing about.  `passForward` and
`passBackward` say, by recursion on the list of layers, which calls of the trait's methods a network makes.
-/

namespace Rusty.Spec

open F32Ops

variable {F : Type} [F32Ops F] {L : Type} [LayerOps F L]

/-- `forward` of the first layer on `x`, then of the next layer on its output, and so on, up to the first `Err` or
panic.  Layers and outputs behind an `Err` stay as they are. -/
def passForward (b : Build) : List L → List (Tensor F) → Tensor F → Exec (Res × List L × List (Tensor F))
  | l :: ls, out :: outs, x => do
    let (r, l', y) ← LayerOps.forward b l x out
    match r with
    | .error e => pure (.error e, l' :: ls, y :: outs)
    | .ok () => do
      let (r, ls', ys) ← passForward b ls outs y
      pure (r, l' :: ls', y :: ys)
  | ls, outs, _ => pure (.ok (), ls, outs)

/-- `backward` of the last layer on `g`, then of the layer before on the gradient it handed on, and so on, down to the
first layer or an `Err` or panic.  Layer `i` gets the states `i` and `i + 1` as input and output. -/
def passBackward (b : Build) : List L → List (Tensor F) → List (Tensor F) → Tensor F →
    Exec (Res × List L × List (Tensor F))
  | l :: ls, x :: y :: states, og :: ogs, g => do
    let (r, ls', gs) ← passBackward b ls (y :: states) ogs g
    match r with
    | .error e => pure (.error e, l :: ls', og :: gs)
    | .ok () => do
      let (r, l', og') ← LayerOps.backward b l x y (gs.headD g) og
      pure (r, l' :: ls', og' :: gs)
  | ls, _, ogs, _ => pure (.ok (), ls, ogs)

/-- any calls of the API that return, on a network of any layers -/
inductive AnyHistory (b : Build) : Network F L → Prop
  | new (m) : AnyHistory b (Network.new m)
  | add_layer (n l r n') : AnyHistory b n → n.add_layer b l = .ok (r, n') → AnyHistory b n'
  | infer (n x r n') : AnyHistory b n → n.infer b x = .ok (r, n') → AnyHistory b n'
  | backward (n g r n') : AnyHistory b n → n.backward b g = .ok (r, n') → AnyHistory b n'
  | switch_to_training (n n') : AnyHistory b n → n.switch_to_training b = .ok n' → AnyHistory b n'
  | switch_to_inference (n n') : AnyHistory b n → n.switch_to_inference b = .ok n' → AnyHistory b n'

/-- the same in training mode: created in it or switched to it, and not switched to inference since -/
inductive AnyTraining (b : Build) : Network F L → Prop
  | new : AnyTraining b (Network.new .Training)
  | switch_to_training (n n') : AnyHistory b n → n.switch_to_training b = .ok n' → AnyTraining b n'
  | add_layer (n l r n') : AnyTraining b n → n.add_layer b l = .ok (r, n') → AnyTraining b n'
  | infer (n x r n') : AnyTraining b n → n.infer b x = .ok (r, n') → AnyTraining b n'
  | backward (n g r n') : AnyTraining b n → n.backward b g = .ok (r, n') → AnyTraining b n'

/-- `l'` is a layer of `P` that computes the same function between the same shapes as `l`. -/
structure Alike (P : L → Prop) (f : L → Tensor F → Tensor F) (l l' : L) : Prop where
  ok : P l'
  input : LayerOps.get_input_shape l' = LayerOps.get_input_shape l
  output : LayerOps.get_output_shape l' = LayerOps.get_output_shape l
  function : ∀ z, f l' z = f l z

/-- Layers of `P` compute the function `f` in `forward`, on tensors of the right shapes, and no call of the trait's
methods changes that. -/
structure Computes (b : Build) (P : L → Prop) (f : L → Tensor F → Tensor F) : Prop where
  shapes : ∀ l, P l → (LayerOps.get_input_shape l).Fits ∧ (LayerOps.get_output_shape l).Fits
  forward : ∀ l x out, P l → x.WF → x.shape = LayerOps.get_input_shape l → out.WF →
    out.shape = LayerOps.get_output_shape l → ∃ l', LayerOps.forward b l x out = .ok (.ok (), l', f l x) ∧
      (f l x).WF ∧ (f l x).shape = LayerOps.get_output_shape l ∧ Alike P f l l'
  backward : ∀ l x y g og r l' og', P l → LayerOps.backward b l x y g og = .ok (r, l', og') → Alike P f l l'
  training : ∀ l l', P l → LayerOps.switch_to_training b l = .ok l' → Alike P f l l'
  inference : ∀ l l', P l → LayerOps.switch_to_inference b l = .ok l' → Alike P f l l'

/-- `LawfulHistory b P ls n`: the layers `ls` of `P` were handed to `add_layer` and accepted, in this order; in
between, any calls of the API returned. -/
inductive LawfulHistory (b : Build) (P : L → Prop) : List L → Network F L → Prop
  | new (m) : LawfulHistory b P [] (Network.new m)
  | accepted (ls n l n') : LawfulHistory b P ls n → P l → n.add_layer b l = .ok (.ok (), n') →
      LawfulHistory b P (ls ++ [l]) n'
  | refused (ls n l e n') : LawfulHistory b P ls n → n.add_layer b l = .ok (.error e, n') → LawfulHistory b P ls n'
  | infer (ls n x r n') : LawfulHistory b P ls n → x.WF → n.infer b x = .ok (r, n') → LawfulHistory b P ls n'
  | backward (ls n g r n') : LawfulHistory b P ls n → n.backward b g = .ok (r, n') → LawfulHistory b P ls n'
  | switch_to_training (ls n n') : LawfulHistory b P ls n → n.switch_to_training b = .ok n' → LawfulHistory b P ls n'
  | switch_to_inference (ls n n') :
      LawfulHistory b P ls n → n.switch_to_inference b = .ok n' → LawfulHistory b P ls n'

end Rusty.Spec
