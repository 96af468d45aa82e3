# Design: a Lean 4 model of rusty_network

## 1. What is modelled

The whole library (`/repo/src`, unit tests and `main.rs` excluded) is modelled function by
function in `lean/Verif/Model/*.lean`. Every definition cites the lines it models.

| Rust | Lean |
|---|---|
| `u32` | `UInt32`; `+ - *` go through `addU/subU/mulU`, which panic on overflow in `Build.debug` and wrap in `Build.release`; `/ %` panic on zero in both. Every theorem that depends on the profile quantifies over it. |
| `i32` (one place: convolution backprop) | `Int` in the i32 range, with wrapping / overflow panics modelled |
| `f32` | an arbitrary type `F` with an `F32Ops F` instance: the operations the code uses, **no laws**. A theorem that only needs `F32Ops` holds for IEEE binary32 and for any other float semantics. Summation order is that of the code. Theorems that need laws name them, or are stated over the exact reals (`ℝ`), or over the concrete IEEE binary32 model of `Verif/Model/IEEE.lean`. |
| panic | `Exec α = Except PanicKind α`; `.error` is a panic (overflow, division by zero, index out of bounds, `unwrap`, `expect`, `assert`) |
| `Result<(), &str>` with `&mut` arguments | `Exec (Except String Unit × new values)`; the state after `Err` is explicit |
| order of panics | the element loops of `transpose_ij` and of the four matrix products compute both element positions before they read; the model reads the first element before it computes the second position. The same calls panic and nothing is written in between, only the kind of the panic can differ, and only on tensors whose fields do not fit together. No theorem depends on it. |
| `for i in lo..hi` | `forRange lo hi`, a monadic left fold in the code's order |
| `Vec<T>` | `List T`, indexing checked |
| `HashMap<K,V>` | association list; `HashOrder` is any choice of a permutation of the entries per map, theorems quantify over it |
| `bincode` 1.3.3 (`serialize`/`deserialize`: fixed-width little endian, u64 lengths, u32 variant tags, trailing bytes allowed) | byte-level encoders/decoders over `List UInt8` |
| `fs::write` / `fs::read` | the file system maps names to byte lists; `WriteOutcome` says how a write ends: normally, not opened, or cut off after any number of bytes |
| `Box<dyn Layer>` | type class `LayerOps F L`; the network model is generic in `L`, and instantiated with the sum of the four layer types |

## 2. What is not modelled

* The random generator: the environment supplies the random words of `fill_with_uniform` and the
  standard normal samples of `fill_with_gaussian`. The distributions of `rand` 0.8.5 and `rand_distr`
  0.4.3 built on them are in `Verif/Model/Random.lean`; nothing is claimed about how likely a word or
  sample is. C135 counts the words that lead to a result, C143 the samples.
* Memory exhaustion; 32-bit targets (`usize` is taken to be 64 bits wide); lengths of 2^64 and more.
* OS errors of `fs` other than a missing file, a file that cannot be opened, and a write cut short.
* `Debug`/`Display` output. Error strings are modelled literally, no theorem depends on the text.
* `exp`: an uninterpreted operation, the real exponential over ℝ, and over IEEE binary32 any function
  that meets the accuracy assumption `ExpAccurate` of `Verif/Spec/IEEE.lean`. Rust promises no
  accuracy, so this is an assumption about the platform; `expCut_accurate` shows it can be met.
* The sign and payload of NaN results: `Verif/Model/IEEE.lean` returns one canonical NaN. C100 shows that
  nothing but the bits of stored NaNs depends on this choice.
* Fused or extended-precision arithmetic, which Rust does not use for `f32`.
* What a caller could still see of the arguments after a panic it catches with `catch_unwind`: a panic
  drops the state. `Model/Unwind.lean` models it for the methods that change parameters, modes and the list
  of layers (C81), `Model/UnwindRun.lean` for `forward`, `backward`, `infer` and the tensor operations they
  use (C94, C132). For constructors and file access it is not modelled.
* Which of two panics comes first, in a few places where the code computes all indices before it reads
  and the model reads in between. It matters only for tensors with inconsistent strides, where the
  *kind* of panic could differ; whether there is a panic is the same.
* Several names for one file (links, `./x` and `x`): the file system is keyed by the name as given.
* `serialize`/`load_from_serialized` of layer types that a client defines: only the four types of the
  library can be saved.
* Layer types of a client with interior mutability or global state: a method of `LayerOps` is a function
  of the layer and its arguments (C98).

`Verif/Model/IEEE.lean` models `f32` itself, so there is no code to cite. `Verif/Lemmas/IEEERounding.lean`
proves that its `+ * / sqrt` on finite arguments round correctly: the result is the one described by
`Rounds` of `Verif/Spec/Rounding.lean` (nearest float, ties to even, overflow threshold, sign), and
`rounds_unique` shows that this leaves no freedom. As a further check, not a
proof, `+ * / sqrt > ==` were compared with the machine's `Float32` on all pairs of 618 bit patterns
(zeros, subnormals, boundaries, infinities, NaN, random); there was no difference.

## 3. Trusted base

* Lean 4.33.0's kernel.
* The axioms `propext`, `Classical.choice`, `Quot.sound` and no other. `AXIOMS.md` lists the axioms of
  every property theorem. No `sorry`, `native_decide`, `bv_decide` or axioms of our own.
* The reading of `/repo` and of the documented behaviour of `bincode`, `serde`, `rand`, `rand_distr` and
  Rust's standard library that the model definitions express.
* Law classes are hypotheses of the theorems that name them: `F32Order`, `MaxZero` (both proved of the
  IEEE model in `Verif/Lemmas/IEEELaws.lean`), `ExactAdd` (exact arithmetic only), `ExpAccurate`. The error
  bounds of `Spec.Accuracy` ask for `ExpAccurate` where there is a softmax layer and not otherwise.

"Well formed" means `Tensor.WF` (`Verif/Spec/Tensor.lean`: consistent strides and length, element
count below 2^32) and `AnyLayer.Ok` (`Verif/Spec/Layers.lean`: matching parameter shapes, windows that
tile the input, buffers present in training mode). Constructors with positive sizes make well formed
layers (C52); `fill_from_state` and loading can make others (C70, C46).

### Validation of the model

`lean/Verif/Tests` holds the unit tests of `/repo` (51 of them, `#[cfg(test)]` modules of `src`), written
against the model over IEEE arithmetic (`Model/IEEE.lean`) and evaluated by the kernel (`decide
+kernel`) in both build profiles.  All pass.  They are evidence that the
model behaves like the code on the inputs its authors chose.  They are not proofs of properties, and no
property relies on them.  Tests that draw random numbers are replayed with fixed numbers; the values of
`exp` at 1, 2 and 3, which the softmax tests need, are given as bit patterns.

## 4. Plan per property

"list fold" = turn the nested loops into one fold over the list of index triples, show that each step
succeeds and writes one position, use injectivity of the linear index. 

| Property | Model | Proof |
|---|---|---|
| C01-C05 | `Model/Tensor.lean` | arithmetic on the linear index `i + di*(j + dj*k)` |
| C06 | same, op lists | simulation with a function-valued spec, induction over the ops |
| C07 | all writers | collected from the functional theorems, plus error branches |
| C08, C14 | elementwise ops | zip lemmas |
| C09 | scatter add | induction over the index list |
| C10-C13 | transposes and products | list fold |
| C15, C16 | dimension checks | `omega`-style arithmetic on u32; release-mode acceptance of impossible geometry is a negative theorem; `Props/ExactConditions.lean` has the exact acceptance conditions of both profiles (C15), the exact condition for windows inside the image (C16) and that of usable tensors read from files (C50) |
| C17, C18 | convolutions | list fold, in-bounds from C15 |
| C19 | outgoing gradient | the property is false of the code: `i_stop` is clamped with the kernel size instead of the result size and `i_start` truncates toward zero. Prove it exactly when stride = 1 and kernel size = result size (`_partial`), and, for every other accepted geometry, prove that some data gives a panic or a wrong gradient; the `i32` index arithmetic overflows for images with more than 2^31 rows, kernels with 2^31 or more and strides from 2^31 on, `C19_debug_negation` covers these too for debug builds; release builds wrap around, and `C19_adjoint_release_partial` needs no bound on the sizes |
| C20 | kernel gradient | false for more than one channel (sum runs over all channels); `_partial` for one channel, negation for every accepted geometry with more channels |
| C21-C23 | pooling | laws of `>` on floats with NaN (a law class the IEEE model satisfies) |
| C24 | softmax over ℝ | `Real.exp` |
| C25 | softmax in IEEE | false (exp overflow and underflow give NaN); `_partial` with the exact condition for NaN (entry's exponential infinite or computed sum zero), in particular right for entries in [-87,71] |
| C26 | softmax backward | false for shapes other than n×1×1 (returns Err); `_partial` for columns, derivative over ℝ |
| C27-C29 | fully connected | from C11-C14; derivative over ℝ |
| C30, C31 | convolutional layer | C31 false (mask unused, channels mixed); what backward does compute is characterised |
| C32 | mode guard | true for two of the four layers; negations for the other two |
| C33, C51 | mode switches, parameters | case analysis |
| C34-C43 | `Model/Network.lean`, generic over layers | invariants by induction over histories; C41/C42 false because `switch_to_inference` records `Training`; exact characterisation of when `backward` panics |
| C44-C50 | `Model/Bincode.lean`, `Model/Layers.lean`, `Model/Network.lean` | codec laws: round trip, extension (hence strict prefixes are rejected), permutation independence; C48/C50 false in general, characterised |
| C52-C54 | constructors, equality, norm | direct; exact outcomes of the constructors in `Props/ExactConditions` |
| C55 | networks | invariant "layer is well formed" |
| C56 | training steps | invariant `TrainReady` over histories |
| C57, C58 | `Spec/Derivative.lean`, over ℝ | Fréchet derivative of each layer, chain rule by induction over the layers |
| C59-C63 | files | codec laws of C44-C47; C59, C60, C61 and C63 false in general, characterised; `Props/Loading.lean` has the exact conditions for C59 in release and debug builds and for panics of `add_layer` (C35), `Props/LoadedExact.lean` the one for C60, `Props/Assembled.lean` the exact condition for C46 and C63 on all networks a client can assemble |
| C64, C65 | `Model/IEEE.lean` | rounding error of one operation, induction over the sum |
| C66 | IEEE | ReLU and the running maximum drop NaN |
| C67, C68 | softmax in IEEE | monotonicity of rounding; error of sum and quotients |
| C71, C72 | norm and gradients in IEEE | correctly rounded square root; gates by 0 and 1 are exact; error of sums |
| C73 | softmax in IEEE | relative errors of `exp`, sum and quotient combined |
| C74 | `Spec/Accuracy.lean` | each layer is Lipschitz in exact arithmetic and adds its own rounding error (C65, C73); induction over the layers |
| C75 | `Model/Random.lean` | rounded sums and products are monotone; the loop that shrinks the scale ends at a scale whose largest sample is in range |
| C76 | `Spec/Client.lean`, all of `Model` | every function that depends on the build profile is built from checked arithmetic with binds and loops, which keep `Agree`; induction over the client program |
| C77 | `Model/IEEE.lean`, `Model/Network.lean`, spec `Spec/Grid.lean` | a sum or product whose exact value is an integer of at most `2^24` in units of `2^-p` is representable, hence not rounded; induction over the layers; limit: `max(0, x+1)` at `2^24` |
| C78 | `Model/IEEE.lean`, `Model/Network.lean`, specs `Spec/Rounding.lean`, `Spec/Monotone.lean` | correct rounding is monotone (`rounds_mono`, from the description of rounding alone), hence sums and products are; induction over the layers of two runs side by side; witness of overflow: `0 * inf` |
| C79 | `Model/Network.lean`, spec `Spec/Locality.lean` | induction over the layers of two runs side by side: equal patches give equal patches of the next state; tilings compose (`tiles_comp`) |
| C80 | `Model/IEEE.lean`, `Model/Network.lean`, spec `Spec/SignedZero.lean` | sums that start from `0.0` are never `-0.0` and do not see the sign of a zero summand; `>` does not either; induction over the layers of two runs |
| C81 | `Model/Unwind.lean` (second model of the same methods, one step per assignment to `self`) | refinement: the results are those of the plain model (`C81_agrees`); false of softmax and fully connected layers, of `add_layer`, `load_from_file` and `switch_to_training`; true of the other two layers because every panic comes before the first assignment; `C81_switch_layer_partial` gives the whole network that a panic in the switch of a layer leaves |
| C82 | `Model/Layers.lean`, spec `Spec/Windows.lean` | both pre-activations are sums over the same list: the kernel's index triples in storage order |
| C83 | repeated `backward` | induction over the calls; false of fully connected layers, characterised for any number of calls |
| C84 | robustness: nearby inputs give nearby outputs, and a large gap keeps the order | `Gain` by induction over the layers, then C74 |
| C85 | shorthands for shapes and indices, layer setters | direct |
| C86 | renumbering hidden units | permuted sums are equal over the reals, then C74 |
| C87 | sizes of saved files, files determine networks | lengths of the encodings; C46 for the rest |
| C88 | a small gradient step lowers the loss | C58 along the path of steps, then the sign of the derivative |
| C89 | gradients of whole networks in IEEE | `Spec/RealGradient.lean`: networks and backpropagation over ℝ, separate from the model, shown to be derivatives; errors by induction over the layers, forward and back |
| C90 | stored numbers | `Spec/Memory.lean`: counts of all data vectors, formulas in shapes; invariant over all histories (states well formed, layer buffers as their mode says, gradients' shapes a suffix of the states' shapes) |
| C91 | batches of examples | `Spec/Batch.lean`: `Batch` is the client's loop; the contribution of an example is a function of parameters and example; derivative of the sum over the examples from C58 |
| C92 | `backward` linear in the gradient | a relation between three numbers that sums and products with a common factor respect is carried through the backward pass of any network (`Lemmas/Linear.lean`) |
| C93 | opposite gradients in `f32` | the lemma of C92 with the relation `Opposite` (`Spec/Opposite.lean`); symmetry of addition and multiplication (`Lemmas/Opposite.lean`) |
| C94 | what a panic in a calculation leaves | `Model/UnwindRun.lean`: the tensor operations, `forward`, `backward` and `infer` once more, one step per write; an invariant (layout of every written tensor, parameters of every layer) that every write keeps |
| C95 | two pooling steps as one | a maximum of maxima is a maximum of the union (`max_of_maxes`); offsets of windows of windows are the offsets of the combined window |
| C96 | a network cut in two | runs of the same layers from the same state agree wherever they stand (`states_follow`), gradients by induction from the last layer (`rounds_split`) |
| C97 | units and channels are independent | pre-activations depend on one row or kernel; C28 for the gradients; adding zero times a finite number changes no float (`foldl_zeros`) |
| C98 | networks of client-defined layers | the loops of infer and backward are the recursive passes (`infer_loop`, `backward_loop`); invariant `Lawful` over histories |
| C99 | what a file can make the program store | every decoder consumes at least what it returns (`Weighs`); induction over the layers; false of buffers |
| C100 | which NaN | relation between two runs, one lemma per operation, loop and method (`rel_*`) |
| C101 | independence of the platform | the relation of C100 with a coarser notion of the same number; division and `exp` are used by softmax only |
| C102 | C24 and C67 for whole networks | the states around the last layer from C36; the cut network from C96 |
| C103 | max pooling and functions of the entries | induction over the window; `relu` of the running maximum, with the first entry apart because the maximum starts at negative infinity |
| C104 | positive homogeneity, exact arithmetic | per layer: sums, `max(0, x)` and the running maximum commute with a factor that is not negative; induction over the states of C36 |
| C105 | scaling by powers of two, `f32` | rounding to 24 digits commutes with a power of two when the result is normal or needs no rounding (`rawCode_scale`); then sums, ReLU, maximum, and induction over the layers as in C78 and C77 |
| C106 | identity layers, `f32` | a sum with a single nonzero product that is representable is exact in every order (`dot_single`), and a number with clear sign bit is determined by its value; the states then follow each other as in C96 |
| C107 | rescaling symmetry | pre-activations are multiplied by a positive factor, so ReLU masks and winners of max-pool windows stay (`preact_rescaled`, `winners_rescaled`); induction forwards over states and backwards over gradients |
| C108 | balance of values and gradients | per layer: what passes the ReLU times the pre-activation is the gradient times the output (`masked_preact`), the winner of a window holds its maximum (`mp_balance`); the sums telescope from the last layer back |
| C109 | parameters times powers of two, `f32` | rounding commutes with powers of two in sums always, in products where nothing underflows (`mul_shifted`, `add_shifted`); outputs of a ReLU have no sign, so equal values are equal bits |
| C110 | raising parameters never lowers a prediction | rounding is monotone, so one multiply-add is monotone in weight and input when the input (or the larger weight) is not negative (`product_raised`); `unit_raised` folds it over a unit, `layer_raised` over a layer, induction over the layers |
| C111 | fresh start | a switch gives layers determined by the parameters (`switch_of_params`) and gradients determined by the shapes; `forward` writes every element of its output, mask and record (`forward_overwrites`), so the states agree after `infer` |
| C112 | pruning, `f32` | a running sum that starts from 0 is never -0, so adding a zero product keeps its bits (`summed_add_zero`); the picked indices are a sublist of all in the same order (`picks_filter`) |
| C113 | zero gradient, `f32` | zero or NaN is closed under sums and under products with anything, so `net_respected` applies; for finite numbers zeros stay zeros layer by layer (`round_zero`) |
| C114 | twin units, any arithmetic | rows give equal pre-activations, columns give equal incoming gradients (`twins_round`), induction over the examples |
| C115 | softmax gradient identities, exact arithmetic | `sm_backward_column` read in ℝ, outputs sum to one (C24) |
| C116 | convexity, exact and f32 up to rounding | rectified sums and maxima are convex, and monotone behind the first layer (`layer_convex`) |
| C117 | mirrored and transposed networks, exact and f32 up to rounding | windows tile exactly, so turned windows are windows (`turn_window`); sums and maxima do not depend on order |
| C118 | networks side by side, f32 bit for bit | each of the two is the joint network without the units of the other, so C112 applies twice |
| C119 | copies of units share the outgoing weight | a sum over copies is regrouped by unit; exactNet, then C74 for both networks |
| C120 | networks are piecewise affine | layer by layer in exact arithmetic; C74 for f32 |
| C121 | influence along non-zero weights, f32 bit for bit | a running sum does not change when a zero is added; induction over the layers |
| C122 | accuracy of the softmax gradient in f32 | error of the dot product, exact negation, error of the accumulation; C73 for forward; derivative of log softmax |
| C123 | a training step with the cross entropy in f32 against the exact derivatives | C74 for the scores, C122 for softmax, C89 for the layers; chain rule for -log softmax |
| C124 | unrolled convolutional layers | the indices under a window, filtered from all indices, are those of the kernel in the same order; adding zeros does not change an f32 sum |
| C125 | loss scaling by powers of two | rounding commutes with 2^k above the subnormal range; finite results have finite arguments, so no bound on the sums is needed |
| C126 | changed parameters | w x - w' y = w (x - y) + (w' - w) (x - y) - (w' - w) x, summed over a row; then the error bounds of C74 for both networks |
| C127 | batches in f32 | C91 gives the gradients of a batch as a sum from left to right of numbers that depend on single examples; the error of such a sum is at most ((1+2^-24)^N - 1) times the sum of the absolute values |
| C128 | descent in f32 | the loss along a joint step of all parameters has the derivative minus the sum of D v (chain rule, by induction on the layers with moving inputs); D v >= v^2 - e abs(v) |
| C129 | checkpoints | C46 gives a network with the same parameters, and C111 says that after a switch and infer the parameters and the input determine the network |
| C130 | gradient check | relu differences pass through as long as the same units are active, by induction over the layers, also for two runs of the model over the reals with any change of one layer's parameters or of the input (`Lemmas/GradCheckReal.lean`); then the bounds of C74 for both predictions and of C89 for the gradient |
| C131 | shortened parameters | clearing bits keeps sign and exponent and costs a relative 2^(k-23) or an absolute 2^(k-149); rows are summed up and C126 applies, the error bounds of C74 carry over since magnitudes only shrink |
| C132 | tensors after a caught panic | every write keeps the layout, in the write by write model of C94 |
| C133 | short tensors as arguments | both runs go through the same places in storage order; a value that can be computed is the same in both |
| C134 | networks with incomplete parameters | a relation of programs (the one returns only what the other does) for every operation; every parameter is read by forward |
| C135 | distribution of `fill_with_uniform` | the scale loop stops at most one float after the product fits; rounding errors of the five operations; counting the words |
| C136 | outcome of `infer` and `backward` depends on forms only | a relation between two runs over different number types; the only branch on numbers, the maximum of a window, reads an index that was just used, or lies inside the image by the check |
| C137 | tensor files are refused as networks | the first eight bytes, the strides 1 and di, are read as the number of layers; only di = 0 leaves enough bytes, and then the layer read is empty and lacks a name |
| C138 | network files are refused as tensors, or give an inert tensor | the number of layers is a 64-bit number, so its upper half 0 and the fields after it are read as strides and shape; `from_file` does not compare them with the data |
| C139 | stride s = stride 1, then 1x1 max pooling with stride s | values: both windows start at s times the index; shapes: both tile the same image; a convolution's output is never NaN or -inf after ReLU, and a maximum is kept by pooling over it alone |
| C140 | accumulated gradients saturate in `f32` | B is less than half a unit in the last place of 2^25 B, so rounding, being monotone, cannot pass it; 2^24 + 1 is a tie and goes to the even 2^24 |
| C141 | normalisation folds into the first layer | no padding, so every window lies inside the prepared input and the shift adds the same amount to every window of a kernel |
| C142 | two layers fit every finite set of non-negative examples | some weighted sum tells all inputs apart (roots of polynomials); over its values a triangular system of ramps is solved |
| C143 | Gaussian fills follow their samples up to an explicit rounding error | rounding bounds of one product and one sum; monotonicity of rounding; counting |
| C144 | units that give zero record nothing, a layer of them blocks all layers before it | the mask of such a unit is zero; zeros and NaNs are closed under what the layers do with gradients |
| C145 | what NaN in the input does: zero, one constant prediction, poisoned gradients | NaN spreads through sums; no comparison with NaN holds, so relu gives zero |
| C146 | a NaN parameter switches its unit off for good, NaN gradients spread to all earlier layers | sums with NaN are NaN, relu makes them zero; backward multiplies the NaN weight with the (zero) masked gradient |
| C147 | a file with a wrong layer type or too many layers is refused, one with too few loads the first layers | the fields of a layer, read as those of another type, have an unknown key or lack one |
| C148 | a NaN in a loss gradient makes all recorded gradients NaN | a mask of 0 or 1 times NaN is NaN, and so is every sum with it; downward induction over the layers, then C91 for the other examples; C111 for the repair |
| C149 | an infinity in the input of a layer: the outputs are 0 or inf, by the sign of one weight | a sum or product with a non-finite operand is not finite, and ReLU leaves only +0 and +inf of those; for the sign, the partial sum before the infinite term is finite (C64), later finite terms change nothing |
| C150 | the parameters of a first fully connected or convolutional layer can be seen from its outputs | an affine function is determined by its positive part unless it is nowhere positive (Exact); a sum of products with one representable term is exact (F32) |
| C151 | after one example, weight gradient = bias gradient times input of the layer | C28 by layers; adding to zero changes no number but the sign of zero; one rounding of the product |
| C152 | weight gradients of a batch are orthogonal to what no example contains, and predictions go on ignoring it | C151 for each example, summed by C91; adding zeros in f32 |
| C153 | commutativity, transposed products, neutral elements and negatives in f32; no associativity or distributivity | C08, C10, C11 and the f32 model; products by 1 and -1 are exact |
| C154 | odds of softmax, raising one score, margin bounds | C24 over the reals; sums without one entry |
| C155 | raising a score in f32 | monotonicity of rounded addition and division; witness evaluated by the kernel |
| C156 | laws of get_norm, exact and rounded | Cauchy-Schwarz over the reals; monotonicity of rounded products, sums and roots |
| C157 | renumbered channels | C74; sums over renumbered channels, induction over the layers |
| C158 | scaled scores | C154; powers and exponentials, limit of the exponential |
| C159 | gradient through softmax | C26 as the deviation from a weighted mean; variance of weighted numbers |
| C160 | classes below the ReLU | C36 for the last two layers; C27, C24, C144 |
| C69, C70 | misuse of `forward` and `fill_from_state` | case analysis; mostly false, every failure is a negation |

## 5. What was found to be false of the code

Each line is a theorem of the model of the unchanged code.

| Theorem | What the code does |
|---|---|
| `C15_release_negation`, `C16_release_negation` | in release builds a kernel larger than the image can pass the dimension check |
| `C19_negation`, `C19_panic_negation`, `C19_everywhere_negation`, `C19_huge_negation`, `C19_debug_negation` | the input gradient of a convolution is wrong or panics for some data on every accepted geometry except stride 1 with a kernel as large as the result; beyond 2^31 rows a debug build always panics |
| `C20_negation`, `C20_channels_negation` | the kernel gradient sums over all channels; wrong on every accepted geometry with two or more channels |
| `C25_overflow_negation`, `C25_underflow_negation`, `C25_large_negation`, `C25_small_negation` | softmax of 100.0 or of -200.0 is NaN; so is it wherever an exponential overflows, and everywhere when all of them underflow |
| `C26_negation` | softmax backward refuses every shape that is not a column |
| `C31_mask_negation`, `C31_bias_negation`, `C31_accumulate_negation` | convolutional backward ignores the ReLU mask, never updates bias gradients and overwrites kernel gradients |
| `C32_max_pool_negation`, `C32_convolutional_negation` | backward in inference mode answers `Ok` with zeros, or panics |
| `C35_panic_negation` | adding a layer too large for `u32` panics in debug builds |
| `C41_negation`, `C41_add_layer_negation`, `C42_negation` | `switch_to_inference` records training mode; backward then panics |
| `C46_empty_layer_negation`, `C46_no_kernels_negation`, `C63_negation`, `C63_no_kernels_negation` | a network with an empty convolutional layer saves but does not load |
| `C46_predicts_negation` | a fully connected layer with weights of depth 2, used once in training mode: the network loaded from the file predicts something else |
| `C48_negation` | a failed load leaves some layers behind |
| `C59_negation`, `C59_poison_negation` | a layer whose fields do not decode, or with stride 0, makes loading panic; in release builds nothing else does, in debug builds only overflowing sizes (`C59_debug_partial`) |
| `C50_negation` | a tensor file with inconsistent layout is accepted |
| `C52_fully_connected_zero_negation`, `C52_stride_zero_negation`, `C52_large_mask_negation` | constructors accept zero sizes, panic on stride 0, mishandle masks larger than the input |
| `C60_*_negation` | loading into a layer in training mode leaves its buffers as they were |
| `C61_negation`, `C61_network_negation` | a save cut short destroys the previous file |
| `C69_*_negation` | layers of all four types answer `Ok` to some tensors of wrong shapes; convolutional layers report others only after overwriting the output |
| `C70_*_negation` | `fill_from_state` accepts parameters the layer cannot run with |
| `C81_*_negation` | a caught panic leaves a softmax layer with a new shape, a network with an added layer but no state for it (it never infers again), or with the first layers of a damaged file |
| C138 | the file of a network of two softmax layers is accepted by `Tensor::from_file` | `C138_negation` | what holds: every accepted network file is an inert tensor (dj = 0, all reads 0, writes do nothing) |
| `C99_negation` | a file of 64 bytes with one softmax layer of shape 65535x65535x1 is loaded and makes the network allocate two states of that size |
| `C83_negation` | a second `backward` after one `infer` uses the relu mask already multiplied by the first gradient |

`C71_overflow` and `C71_underflow` show the limits of `get_norm`: infinite for a norm of 2^64, 0 for a
norm of 2^-80.

`C23_empty_negation` and `C28_backward_twice_negation` show why a hypothesis of a proved property is
needed: the mask is not empty, every `backward` follows a `forward`.

## 6. Mutation tests

`seeded/LOG.jsonl` has one line per edit of the model in a scratch copy. The broken proofs are replaced
by `sorry` until everything builds again; `failed_directly` lists them, `failed` lists the property
theorems that then depend on `sorryAx`. So `failed` includes theorems that only use a broken lemma: it
says that their proofs no longer go through, not that their statements are false. `claim` is what was
predicted before the run and `predicted_claim_failed` says whether one of its theorems failed; where it
did not, `note` or `tightened` says why.

Every attempt has a line, those without a verdict as well (`completed` is false): some edits do not type-check,
and for some the script could not replace all broken proofs. Their `note` says which it was and whether there is
a second attempt, with the letter `b` after the number. An attempt without a verdict says nothing about the
theorems. After a theorem was tightened the edit that had survived is also run again, under the same letter.
