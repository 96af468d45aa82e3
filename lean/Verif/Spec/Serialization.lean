import Verif.Spec.Network

/-! # Layers that passed construction -/

namespace Rusty.Spec

open Rusty

variable {F : Type} [F32Ops F] [F32Bits F]

/-- `Made b l`: some client got layer `l` from a constructor, from `fill_from_state` or by loading, each
of which said `Ok`, and then used it in any way.  `ConvolutionalLayer::empty`, the only source of layers
without kernels, is left out. -/
inductive Made (b : Build) : AnyLayer F → Prop
  | conv_new (ks is st d name l) : ConvolutionalLayer.new b ks is st d name = .ok (.ok l) →
      Made b (.conv l)
  | conv_fill (l0 : ConvolutionalLayer F) (ks bs is st name l) :
      l0.fill_from_state b ks bs is st name = .ok (.ok (), l) → Made b (.conv l)
  | conv_load (l0 : ConvolutionalLayer F) (s l) :
      l0.load_from_serialized b s = .ok (.ok (), l) → Made b (.conv l)
  | fc_new (n m name l) : FullyConnectedLayer.new b n m name = .ok l → Made b (.fc l)
  | fc_empty (l) : FullyConnectedLayer.empty b = .ok l → Made b (.fc l)
  | fc_fill (l0 : FullyConnectedLayer F) (w bi name l) :
      l0.fill_from_state b w bi name = .ok (.ok (), l) → Made b (.fc l)
  | fc_load (l0 : FullyConnectedLayer F) (s l) :
      l0.load_from_serialized b s = .ok (.ok (), l) → Made b (.fc l)
  | fc_weights (l v) : Made b (.fc l) → Made b (.fc (l.fill_weights_with_value v))
  | fc_bias (l v) : Made b (.fc l) → Made b (.fc (l.fill_bias_with_value v))
  | mp_new (mask is st name l) : MaxPoolLayer.new b mask is st name = .ok (.ok l) → Made b (.mp l)
  | mp_empty : Made b (.mp MaxPoolLayer.empty)
  | mp_fill (l0 : MaxPoolLayer) (is mask st name l) :
      l0.fill_from_state b is mask st name = .ok (.ok (), l) → Made b (.mp l)
  | mp_load (l0 : MaxPoolLayer) (s l) :
      l0.load_from_serialized b s = .ok (.ok (), l) → Made b (.mp l)
  | sm (l) : Made b (.sm l)
  | call (l l') : Made b l → Call b l l' → Made b l'

/-- All layers a client can get at: those above, and the layer of `ConvolutionalLayer::empty`, used in any
way.  (A `fill_from_state` or a load that says `Err` leaves the layer as it was.) -/
def Obtained (b : Build) (l : AnyLayer F) : Prop :=
  Made b l ∨ ∃ c : ConvolutionalLayer F, ConvolutionalLayer.empty b = .ok c ∧ Calls b (.conv c) l

/-- the networks a client can get at by adding such layers, using the network and loading files -/
inductive Assembled (b : Build) : Net F → Prop
  | new (m) : Assembled b (Network.new m)
  | add_layer (n l r n') :
      Assembled b n → Obtained b l → n.add_layer b l = .ok (r, n') → Assembled b n'
  | uses (n n') : Assembled b n → Uses b n n' → Assembled b n'
  | load_from_file (n fs name r n') :
      Assembled b n → n.load_from_file b fs name = .ok (r, n') → Assembled b n'

/-- a convolutional layer has at least one kernel; the constructors see to that -/
def hasKernels : AnyLayer F → Prop
  | .conv l => l.kernels ≠ []
  | _ => True

/-- two layers of the same type -/
def sameType : AnyLayer F → AnyLayer F → Prop
  | .conv _, .conv _ | .fc _, .fc _ | .mp _, .mp _ | .sm _, .sm _ => True
  | _, _ => False

/-- serialised data of the type of a layer -/
def dataFor : AnyLayer F → SerializedLayer → Prop
  | .conv _, .SerialConvolutionalLayer _ | .fc _, .SerialFullyConnectedLayer _
  | .mp _, .SerialMaxPoolLayer _ | .sm _, .SerialSoftMaxLayer _ => True
  | _, _ => False

/-- serialised data in which one of the keys of its layer type is missing -/
def lacksKey : SerializedLayer → Prop
  | .SerialConvolutionalLayer m =>
      ∃ k ∈ [ConvKey.Name, .Kernels, .Biases, .InputShape, .Stride], ∀ e ∈ m.entries, e.1 ≠ k
  | .SerialFullyConnectedLayer m => ∃ k ∈ [FCKey.Name, .Weights, .Bias], ∀ e ∈ m.entries, e.1 ≠ k
  | .SerialMaxPoolLayer m =>
      ∃ k ∈ [MPKey.Name, .InputShape, .MaskShape, .Stride], ∀ e ∈ m.entries, e.1 ≠ k
  | .SerialSoftMaxLayer m => ∃ k ∈ [SMKey.Name, .Shape], ∀ e ∈ m.entries, e.1 ≠ k

/-- the bytes `save_to_file` writes for a network when the maps are iterated in order `o` -/
def fileOf (o : HashOrder) (n : Net F) : Bytes :=
  encSerializedNetwork (o.network (SerializedNetwork.new_from_network n))

/-! ## Files of unknown origin -/

/-- key `k` of the map holds bytes that begin with a value `a` -/
def Holds {K α : Type} [DecidableEq K] (m : HMap K) (k : K) (d : Dec α) (a : α) : Prop :=
  ∃ bs, m.get k = some bs ∧ deserialize d bs = some a

omit [F32Ops F] in
variable (F) in
/-- every key holds a value of its type -/
def Decodes : SerializedLayer → Prop
  | .SerialConvolutionalLayer m =>
      (∃ ks : List (Tensor F), Holds m .Kernels (decVec decTensor) ks) ∧
      (∃ bs : List (Tensor F), Holds m .Biases (decVec decTensor) bs) ∧
      (∃ is, Holds m .InputShape decShape is) ∧ (∃ st, Holds m .Stride decU32 st) ∧
      ∃ name, Holds m .Name decString name
  | .SerialFullyConnectedLayer m =>
      (∃ w : Tensor F, Holds m .Weights decTensor w) ∧ (∃ bi : Tensor F, Holds m .Bias decTensor bi) ∧
      ∃ name, Holds m .Name decString name
  | .SerialMaxPoolLayer m =>
      (∃ ma, Holds m .MaskShape decShape ma) ∧ (∃ is, Holds m .InputShape decShape is) ∧
      (∃ st, Holds m .Stride decU32 st) ∧ ∃ name, Holds m .Name decString name
  | .SerialSoftMaxLayer m =>
      (∃ sh, Holds m .Shape decShape sh) ∧ ∃ name, Holds m .Name decString name

variable (F) in
/-- a max-pool layer, or a convolutional layer with kernels of one shape, of stride 0 -/
def ZeroStride : SerializedLayer → Prop
  | .SerialConvolutionalLayer m =>
      (∃ (k : Tensor F) (ks : List (Tensor F)), Holds m .Kernels (decVec decTensor) (k :: ks) ∧
        ∀ k' ∈ ks, k'.shape = k.shape) ∧ Holds m .Stride decU32 0
  | .SerialMaxPoolLayer m => Holds m .Stride decU32 0
  | _ => False

variable (F) in
/-- all keys are there, but one holds something else than a value of its type, or the stride is 0 -/
def Poison (s : SerializedLayer) : Prop := ¬ lacksKey s ∧ (¬ Decodes F s ∨ ZeroStride F s)

/-- the windows are no larger than the image and the number of positions is below 2^32 -/
def WindowFits (im w : TensorShape) : Prop :=
  w.di ≤ im.di ∧ w.dj ≤ im.dj ∧ (w.di = 0 → im.di.toNat + 1 < 2 ^ 32) ∧
    (w.dj = 0 → im.dj.toNat + 1 < 2 ^ 32)

variable (F) in
/-- all element counts are below 2^32 and no window is larger than the image -/
def Sized : SerializedLayer → Prop
  | .SerialConvolutionalLayer m => ∀ (ks : List (Tensor F)) is st,
      Holds m .Kernels (decVec decTensor) ks → Holds m .InputShape decShape is →
      Holds m .Stride decU32 st → is.Fits ∧ ∀ k ∈ ks, k.shape.Fits ∧ WindowFits is k.shape ∧
        ∀ out, windowsTile is k.shape st out → out.dk = UInt32.ofNat ks.length → out.Fits
  | .SerialFullyConnectedLayer m => ∀ w bi : Tensor F, Holds m .Weights decTensor w →
      Holds m .Bias decTensor bi → w.shape.Fits ∧ bi.shape.Fits
  | .SerialMaxPoolLayer m => ∀ ma is st, Holds m .MaskShape decShape ma →
      Holds m .InputShape decShape is → Holds m .Stride decU32 st → is.Fits ∧ WindowFits is ma ∧
        ∀ out, windowsTile is ma st out → out.dk = is.dk → out.Fits
  | .SerialSoftMaxLayer m => ∀ sh, Holds m .Shape decShape sh → sh.Fits

/-- With overflow checks, counting the positions of a window panics: the window is larger than the image
(the columns are looked at only if the rows fit), or there are 2^32 positions. -/
def WindowPanics (im w : TensorShape) (st : UInt32) : Prop :=
  im.di < w.di ∨ (im.di.toNat - w.di.toNat) % st.toNat = 0 ∧ (im.dj < w.dj ∨
    (im.dj.toNat - w.dj.toNat) % st.toNat = 0 ∧
      (2 ^ 32 ≤ (im.di.toNat - w.di.toNat) / st.toNat + 1 ∨
        2 ^ 32 ≤ (im.dj.toNat - w.dj.toNat) / st.toNat + 1))

omit [F32Bits F] in
/-- A layer of these shapes needs a state in the network whose number of elements is no u32: the first layer
brings its input and its output, a later one its output, if it is accepted. -/
def NoRoom (n : Net F) (ins out : TensorShape) : Prop :=
  match n.layers.getLast? with
  | none => ¬ ins.Fits ∨ ¬ out.Fits
  | some last => last.get_output_shape = ins ∧ ¬ out.Fits

/-- With overflow checks, adding the layer to `n` panics because a size overflows. -/
def SizePanics (n : Net F) : SerializedLayer → Prop
  | .SerialConvolutionalLayer m => ∃ (k : Tensor F) (ks : List (Tensor F)) (is : TensorShape) (st : UInt32),
      Holds m .Kernels (decVec decTensor) (k :: ks) ∧ (∀ k' ∈ ks, k'.shape = k.shape) ∧
      Holds m .InputShape decShape is ∧ Holds m .Stride decU32 st ∧
      (WindowPanics is k.shape st ∨ ∃ out, windowsTile is k.shape st out ∧
        out.dk = UInt32.ofNat (ks.length + 1) ∧
        (n.run_state = .Training ∧ (¬ k.shape.Fits ∨ ¬ out.Fits) ∨ NoRoom n is out))
  | .SerialFullyConnectedLayer m => ∃ w bi : Tensor F, Holds m .Weights decTensor w ∧
      Holds m .Bias decTensor bi ∧
      w.shape.dk = bi.shape.dk ∧ w.shape.di = bi.shape.di ∧ bi.shape.dj = 1 ∧
      (n.run_state = .Training ∧ (¬ w.shape.Fits ∨ ¬ bi.shape.Fits) ∨ NoRoom n ⟨w.shape.dj, 1, 1⟩ bi.shape)
  | .SerialMaxPoolLayer m => ∃ (ma is : TensorShape) (st : UInt32), Holds m .MaskShape decShape ma ∧
      Holds m .InputShape decShape is ∧ Holds m .Stride decU32 st ∧
      (WindowPanics is ma st ∨ ∃ out, windowsTile is ma st out ∧ out.dk = is.dk ∧
        (n.run_state = .Training ∧ ¬ out.Fits ∨ NoRoom n is out))
  | .SerialSoftMaxLayer m => ∃ sh, Holds m .Shape decShape sh ∧
      (n.run_state = .Training ∧ ¬ sh.Fits ∨ NoRoom n sh sh)

end Rusty.Spec
