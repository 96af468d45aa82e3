{"id": "C01", "title": "A new tensor is all zeros and exactly the requested shape", "statement": "For every shape for which di*dj and di*dj*dk fit in u32, Tensor::new(shape) returns without panicking; get_shape() is the shape given, total_items() is di*dj*dk, and get_item at every index inside the shape returns 0.0. When di*dj or di*dj*dk does not fit in u32 a build with overflow checks panics.", "quantifier": "all u32 triples (di,dj,dk), both build profiles, all indices", "why_tests_cant": "2^96 shapes and every index of each; the overflow boundary is never sampled", "anchors": ["src/tensor.rs:Tensor::new", "src/tensor.rs:Tensor::total_items", "src/tensor/helper.rs:TensorShape::total_size", "src/tensor/helper.rs:TensorStride::new_from_shape"]}
{"id": "C02", "title": "Read-your-write and frame for set_item", "statement": "After set_item(ix,v) with ix inside the shape, get_item(ix) returns v and get_item at every other inside index returns what it returned before; the shape is unchanged and nothing panics.", "quantifier": "every well formed tensor, every pair of inside indices, every value, both build profiles", "why_tests_cant": "needs injectivity of the index linearisation for every shape; tests try a handful of indices of one shape", "anchors": ["src/tensor.rs:Tensor::set_item", "src/tensor.rs:Tensor::get_item", "src/tensor.rs:Tensor::get_data_index"]}
{"id": "C03", "title": "Out-of-range access is inert", "statement": "get_item outside the shape returns 0.0 and set_item outside the shape changes nothing; neither panics, whatever the index.", "quantifier": "every tensor (well formed or not), every u32 index with some coordinate out of range, both build profiles", "why_tests_cant": "unbounded index space including values whose linear position would overflow u32", "anchors": ["src/tensor.rs:Tensor::set_item", "src/tensor.rs:Tensor::get_item", "src/tensor/helper.rs:TensorShape::fits_index"]}
{"id": "C04", "title": "The index-to-position map is a bijection and never overflows", "statement": "For every shape whose element count fits in u32, the position computed for an inside index (i,j,k) is i + di*j + di*dj*k without overflow, is below the element count, distinct inside indices get distinct positions, and every position below the count is hit.", "quantifier": "all shapes with representable element count, all inside indices", "why_tests_cant": "arithmetic fact over all u32 shapes; a wrong stride is invisible on cubic or flat test shapes", "anchors": ["src/tensor.rs:Tensor::get_data_index", "src/tensor/helper.rs:TensorStride::new_from_shape", "src/tensor/helper.rs:ops::Mul"]}
{"id": "C05", "title": "fill_with_vec lays data out with i fastest, or rejects and leaves the tensor alone", "statement": "fill_with_vec(v) succeeds exactly when v.len() equals the element count; afterwards get_item(i,j,k) is v[i + di*(j + dj*k)]. Otherwise it returns Err and the tensor is unchanged.", "quantifier": "every well formed tensor, every vector, every inside index", "why_tests_cant": "every length and every index of every shape", "anchors": ["src/tensor.rs:Tensor::fill_with_vec"]}
{"id": "C06", "title": "Any history of writes to a tensor behaves like a simple map", "statement": "Starting from a new tensor, after any sequence of set_item, fill_with_value, fill_with_vec and scale_self calls, get_item at each index returns what a plain index-to-value map subjected to the same calls holds (0.0 outside the shape), and no call panics.", "quantifier": "every shape with representable count and every finite sequence of calls with any arguments", "why_tests_cant": "histories are unbounded", "anchors": ["src/tensor.rs:Tensor::set_item", "src/tensor.rs:Tensor::get_item", "src/tensor.rs:Tensor::fill_with_value", "src/tensor.rs:Tensor::fill_with_vec", "src/tensor.rs:Tensor::scale_self"]}
{"id": "C07", "title": "No public tensor operation changes a tensor's shape or breaks its layout", "statement": "For every public operation that writes a tensor (elementwise ops, matrix products, transposes, convolutions, pooling, softmax, fills), a well formed target stays well formed with the same shape, whether the operation succeeds, silently declines or returns Err.", "quantifier": "every operation, all well formed arguments of any shapes, both build profiles", "why_tests_cant": "every operation on every combination of shapes, including mismatching ones", "anchors": ["src/tensor.rs:impl Tensor", "src/tensor/operations/convolution.rs:convolution_bias", "src/tensor/operations/convolution.rs:convolution_bias_relu", "src/tensor/operations/convolution.rs:convolution_backprop_kernel", "src/tensor/operations/convolution.rs:convolution_backprop_outgoing_gradient"]}
{"id": "C08", "title": "Elementwise arithmetic is pointwise, and a shape mismatch changes nothing", "statement": "add, add_to_self, scale, scale_self, multiply_elementwise and multiply_elementwise_self compute result(ix) = op(arg1(ix), arg2(ix)) at every inside index when the shapes agree, and leave the target exactly as it was when they do not.", "quantifier": "all well formed tensors of any shapes, all scalars, any floating point semantics", "why_tests_cant": "every shape pair and every element", "anchors": ["src/tensor.rs:Tensor::add", "src/tensor.rs:Tensor::add_to_self", "src/tensor.rs:Tensor::scale", "src/tensor.rs:Tensor::scale_self", "src/tensor.rs:Tensor::multiply_elementwise", "src/tensor.rs:Tensor::multiply_elementwise_self"]}
{"id": "C09", "title": "add_from_index_list is an ordered scatter-add that rejects bad indices", "statement": "When the list is no longer than the source and all its indices are inside the target, the call returns Ok and target position p receives, in list order, every source element whose list entry is p, other positions untouched. A list longer than the source is rejected with the target unchanged; a list with an index outside the target is rejected, and exactly the entries before the first bad one have been applied. No panic.", "quantifier": "all well formed source and target tensors and all index lists", "why_tests_cant": "unbounded index lists, repeated indices, position of the first bad index", "anchors": ["src/tensor.rs:Tensor::add_from_index_list"]}
{"id": "C10", "title": "transpose_ij swaps the first two coordinates and is an involution", "statement": "transpose_ij(input, output) succeeds exactly when output's shape is input's with di and dj swapped; then output(i,j,k) = input(j,i,k) everywhere, and transposing back reproduces the input. Otherwise it returns Err and output is unchanged.", "quantifier": "all well formed tensors of any shapes", "why_tests_cant": "every rectangular shape", "anchors": ["src/tensor.rs:Tensor::transpose_ij"]}
{"id": "C11", "title": "matrix_multiply computes the batched matrix product", "statement": "When inner, outer and batch dimensions agree, matrix_multiply writes result(i,j,k) = sum over l in increasing order, starting from 0.0, of t1(i,l,k)*t2(l,j,k), at every index and without panicking; otherwise the result tensor is unchanged.", "quantifier": "all well formed tensors of any shapes, any floating point semantics", "why_tests_cant": "every triple of shapes and every summation length", "anchors": ["src/tensor.rs:Tensor::matrix_multiply", "src/tensor.rs:Tensor::check_matrix_multiply_dimensions"]}
{"id": "C12", "title": "The transposing products equal transposing first and multiplying after", "statement": "matrix_multiply_transpose_first(a,b,r) leaves in r exactly what transpose_ij(a) followed by matrix_multiply leaves, and matrix_multiply_transpose_second(a,b,r) what transposing b first leaves, bit for bit; each returns Err with r unchanged exactly when the shapes do not admit the product.", "quantifier": "all well formed tensors of any shapes, any floating point semantics", "why_tests_cant": "every triple of shapes", "anchors": ["src/tensor.rs:Tensor::matrix_multiply_transpose_first", "src/tensor.rs:Tensor::matrix_multiply_transpose_second", "src/tensor.rs:Tensor::transpose_ij"]}
{"id": "C13", "title": "The fused multiply-add-relu agrees with the stepwise computation", "statement": "matrix_multiply_add_relu(input, weights, bias, result) writes max(0, sum_l weights(i,l,k)*input(l,j,k) + bias(i,j,k)) at every index when shapes agree, which is what matrix_multiply, add_to_self and relu_self_and_store_mask produce in sequence; when shapes do not agree the result is unchanged.", "quantifier": "all well formed tensors of any shapes; any float semantics where max(x,0) is x when x>0 and 0 otherwise (IEEE up to the sign of zero)", "why_tests_cant": "every shape and value including NaN and infinities", "anchors": ["src/tensor.rs:Tensor::matrix_multiply_add_relu", "src/tensor.rs:Tensor::relu_self_and_store_mask"]}
{"id": "C14", "title": "relu_self_and_store_mask clamps and records exactly the positive entries", "statement": "With equal shapes the call returns Ok, each entry x becomes x and mask 1.0 when x>0, and 0.0 and mask 0.0 otherwise (NaN included); with different shapes it returns Err and neither tensor changes.", "quantifier": "all well formed tensors of any shapes, any floating point semantics", "why_tests_cant": "every element including NaN, every shape pair", "anchors": ["src/tensor.rs:Tensor::relu_self_and_store_mask"]}
{"id": "C15", "title": "The convolution dimension check accepts exactly the exact tilings", "statement": "For a nonzero stride and a kernel no larger than the image, check_convolution_dimensions returns Ok exactly when the depths agree, (result.di-1)*stride + kernel.di = image.di, (result.dj-1)*stride + kernel.dj = image.dj and the channel is below result.dk (leaving aside a kernel of extent 0 on an image of extent 2^32-1, whose window count is not a u32). With a zero stride or a larger kernel no combination should be accepted.", "quantifier": "all u32 shapes, strides and channels, both build profiles", "why_tests_cant": "all of u32; wrap-around only shows at sizes no test uses", "anchors": ["src/tensor/operations/convolution.rs:check_convolution_dimensions"]}
{"id": "C16", "title": "Layer geometry and operation geometry agree", "statement": "When does_kernel_stride_fit_image accepts, the output size from get_convolution_dim_fit is the one check_convolution_dimensions and check_max_pooling_dimensions require, and every window it describes lies inside the image.", "quantifier": "all u32 shapes and strides with kernel no larger than image and nonzero stride", "why_tests_cant": "all u32 shapes", "anchors": ["src/tensor.rs:Tensor::does_kernel_stride_fit_image", "src/tensor.rs:Tensor::get_convolution_dim_fit", "src/tensor.rs:Tensor::check_max_pooling_dimensions", "src/tensor/operations/convolution.rs:check_convolution_dimensions"]}
{"id": "C17", "title": "convolution_bias computes the strided cross-correlation in its channel only", "statement": "When the windows tile the image exactly, the stride is not 0 and bias is 1x1x1, convolution_bias returns Ok, writes result(i,j,c) = sum over (kk,kj,ki) of image(i*s+ki, j*s+kj, kk)*kernel(ki,kj,kk) plus bias, leaves all other channels of result untouched, and never panics; when the dimension check returns Err or the bias is larger it returns Err with result unchanged.", "quantifier": "all well formed tensors of any shapes, strides, channels, both build profiles, any float semantics", "why_tests_cant": "every geometry and every element", "anchors": ["src/tensor/operations/convolution.rs:convolution_bias"]}
{"id": "C18", "title": "convolution_bias_relu is convolution_bias followed by relu", "statement": "convolution_bias_relu accepts exactly the same arguments as convolution_bias and writes max(0, y) wherever convolution_bias writes y, other channels untouched.", "quantifier": "all well formed tensors, strides and channels, any float semantics", "why_tests_cant": "every geometry and every element", "anchors": ["src/tensor/operations/convolution.rs:convolution_bias_relu"]}
{"id": "C19", "title": "convolution_backprop_outgoing_gradient is the adjoint of the convolution", "statement": "For every accepted geometry, the outgoing gradient at (a,b,c) is the sum over channels k and output positions (i,j) with 0 <= a-s*i < kernel.di and 0 <= b-s*j < kernel.dj of kernel_k(a-s*i, b-s*j, c)*incoming(i,j,k), i.e. the transpose of the linear map convolution_bias applies, and the call does not panic.", "quantifier": "all well formed tensors, kernel lists and strides accepted by the dimension check", "why_tests_cant": "every combination of image, kernel and stride; the existing test only uses kernel size equal to result size and stride 1", "anchors": ["src/tensor/operations/convolution.rs:convolution_backprop_outgoing_gradient"]}
{"id": "C20", "title": "convolution_backprop_kernel is the gradient of the kernel of its own channel", "statement": "For every accepted geometry the kernel gradient at (l,m,n) for channel c is the sum over output positions (i,j) of image(l+i*s, m+j*s, n)*incoming(i,j,c).", "quantifier": "all well formed tensors, strides and channels accepted by the dimension check", "why_tests_cant": "every geometry and number of channels; the existing test uses one channel", "anchors": ["src/tensor/operations/convolution.rs:convolution_backprop_kernel"]}
{"id": "C21", "title": "max_pool returns the maximum of every window", "statement": "When the windows tile the image exactly, the depths agree and the stride is not 0, each output of max_pool is the largest non-NaN entry of its window (negative infinity when there is none): at least every such entry and equal to one of them. When the dimension check does not accept the geometry the result is unchanged.", "quantifier": "all well formed images, masks, strides and element values including NaN and infinities", "why_tests_cant": "every window geometry and every ordering of values", "anchors": ["src/tensor.rs:Tensor::max_pool", "src/tensor.rs:Tensor::check_max_pooling_dimensions"]}
{"id": "C22", "title": "Origin tracking returns the same maxima and a position that attains them", "statement": "max_pool_track_origin leaves the same result tensor as max_pool; for every output whose window has a value above negative infinity the recorded origin is the position of the first entry of that window attaining the maximum, and lies inside the image. A list of the wrong length is rejected with nothing changed.", "quantifier": "all well formed images, masks, strides and lists", "why_tests_cant": "every window geometry and tie pattern", "anchors": ["src/tensor.rs:Tensor::max_pool_track_origin"]}
{"id": "C23", "title": "Max-pool backward routes each gradient to the position that won", "statement": "After a training-mode forward, MaxPoolLayer::backward returns Ok and the outgoing gradient at p is the sum of the incoming gradients of the outputs whose recorded origin is p, 0.0 elsewhere; in exact arithmetic the total gradient is preserved.", "quantifier": "all well formed max-pool layers whose mask is not empty, inputs and incoming gradients of the layer's shapes", "why_tests_cant": "every input and every overlap pattern of windows", "anchors": ["src/layer/max_pool.rs:MaxPoolLayer::backward", "src/layer/max_pool.rs:MaxPoolLayer::forward", "src/tensor.rs:Tensor::add_from_index_list"]}
{"id": "C24", "title": "Softmax outputs a probability distribution and preserves order", "statement": "In exact arithmetic, for every non-empty tensor softmax writes strictly positive numbers that sum to 1, is the normalised exponential of the input, preserves the order of entries and is unchanged by adding a constant to all entries. A shape mismatch leaves the output unchanged.", "quantifier": "all well formed tensors of every shape", "why_tests_cant": "every length and every real input", "anchors": ["src/tensor.rs:Tensor::softmax", "src/layer/softmax.rs:SoftmaxLayer::forward"]}
{"id": "C25", "title": "Softmax in f32 stays within [0,1] and is defined for every finite input", "statement": "In IEEE binary32 arithmetic, for every finite input tensor softmax writes numbers between 0 and 1 and never NaN.", "quantifier": "all finite f32 tensors", "why_tests_cant": "overflow of exp and of the sum only shows for large entries", "anchors": ["src/tensor.rs:Tensor::softmax"]}
{"id": "C26", "title": "SoftmaxLayer::backward is the Jacobian-vector product", "statement": "In training mode, for a softmax layer of any shape, backward(output, g) returns Ok and writes output*(g - <output,g>) pointwise, which in exact arithmetic is the derivative of softmax applied to g.", "quantifier": "all softmax layers, outputs and gradients of the layer's shape", "why_tests_cant": "every length and shape; the existing test does not check the values", "anchors": ["src/layer/softmax.rs:SoftmaxLayer::backward"]}
{"id": "C27", "title": "Fully connected forward computes relu(Wx+b) in both modes", "statement": "For every fully connected layer built from a weight matrix and bias, forward on an input of its input shape and an output of its output shape returns Ok and writes max(0, sum_l W(o,l)*x(l) + b(o)) at every o, in inference and in training mode alike; training mode also records the mask of positive entries.", "quantifier": "all well formed layers of every size, parameters, inputs; both modes; any float semantics (mode agreement where max(x,0) is x if x>0 and 0 otherwise on sums starting from 0, proved for IEEE binary32)", "why_tests_cant": "every layer size and input", "anchors": ["src/layer/fully_connected.rs:FullyConnectedLayer::forward", "src/layer/fully_connected.rs:FullyConnectedLayer::new", "src/layer/fully_connected.rs:FullyConnectedLayer::fill_from_state"]}
{"id": "C28", "title": "Fully connected backward computes and accumulates the gradients", "statement": "In training mode, after forward(x), backward(g) returns Ok, the outgoing gradient is W^T(m.g) where m is the mask of positive pre-activations, the stored bias gradient grows by m.g and the stored weight gradient by (m.g)x^T; over any number of forward/backward rounds the stored gradients are the sums of the per-round gradients, and clear_gradients resets them.", "quantifier": "all well formed layers of every size, parameters, and all finite sequences of forward/backward rounds", "why_tests_cant": "unbounded sequences of rounds", "anchors": ["src/layer/fully_connected.rs:FullyConnectedLayer::backward", "src/layer/fully_connected.rs:FullyConnectedLayer::clear_gradients"]}
{"id": "C29", "title": "Fully connected backward is the true derivative", "statement": "In exact arithmetic, at every input where no pre-activation is zero, the outgoing gradient of FullyConnectedLayer::backward is the derivative with respect to the input of <g, forward(x)>, and the weight and bias gradients are its derivatives with respect to the parameters.", "quantifier": "all well formed layers of every size, real parameters, inputs and incoming gradients", "why_tests_cant": "a statement about limits over all reals", "anchors": ["src/layer/fully_connected.rs:FullyConnectedLayer::forward", "src/layer/fully_connected.rs:FullyConnectedLayer::backward"]}
{"id": "C30", "title": "Convolutional forward computes relu(conv+bias) in both modes", "statement": "For every convolutional layer whose kernels match the input depth and that has one 1x1x1 bias per kernel, forward on an input of its input shape and an output of its output shape returns Ok and writes max(0, conv_c(i,j) + bias_c) at every (i,j,c), in both modes.", "quantifier": "all well formed layers of every geometry, parameters, inputs, both modes; mode agreement as in C27", "why_tests_cant": "every geometry and channel count", "anchors": ["src/layer/convolutional.rs:ConvolutionalLayer::forward", "src/layer/convolutional.rs:ConvolutionalLayer::fill_from_state"]}
{"id": "C31", "title": "Convolutional backward is the gradient of its forward pass", "statement": "In training mode, after forward(x), backward(g) returns Ok and the outgoing gradient is the convolution adjoint applied to g masked by the relu mask, and the kernel and bias gradients are those of the masked g.", "quantifier": "all layer geometries, parameters, inputs and gradients", "why_tests_cant": "every geometry; the existing test only checks that the result is not all zero", "anchors": ["src/layer/convolutional.rs:ConvolutionalLayer::backward"]}
{"id": "C32", "title": "Backward in inference mode is refused", "statement": "For every layer type, calling backward on a layer in inference mode returns Err and does not change the layer or the outgoing gradient.", "quantifier": "all layers of all four types in inference mode, all arguments", "why_tests_cant": "every layer configuration", "anchors": ["src/layer/fully_connected.rs:FullyConnectedLayer::backward", "src/layer/softmax.rs:SoftmaxLayer::backward", "src/layer/max_pool.rs:MaxPoolLayer::backward", "src/layer/convolutional.rs:ConvolutionalLayer::backward"]}
{"id": "C33", "title": "Switching mode never touches parameters and is idempotent", "statement": "For every layer, switch_to_training and switch_to_inference set get_run_mode accordingly, keep shapes, name and parameters, leave all stored gradients zero (or dropped), and applying the same switch twice equals applying it once.", "quantifier": "all layers of all four types in any state, for calls that return; they return for all well formed layers", "why_tests_cant": "every layer state", "anchors": ["src/layer.rs:Layer::switch_to_training", "src/layer.rs:Layer::switch_to_inference", "src/layer/fully_connected.rs:update_gradient_and_intermediate_tensors", "src/layer/convolutional.rs:update_gradient_and_intermediate_tensors", "src/layer/max_pool.rs:update_gradient_and_intermediate_tensors", "src/layer/softmax.rs:update_gradient_and_intermediate_tensors"]}
{"id": "C34", "title": "A network is always a chain of matching layers", "statement": "After any sequence of add_layer, infer, backward, mode switches and loads on a new network, each layer's output shape equals the next layer's input shape, get_input_shape is the first layer's input shape, get_output_shape the last layer's output shape, and there is exactly one intermediate state more than layers, each of the shape its layers require.", "quantifier": "all histories of API calls of any length", "why_tests_cant": "unbounded histories", "anchors": ["src/network.rs:Network::add_layer", "src/network.rs:Network::get_input_shape", "src/network.rs:Network::get_output_shape", "src/network.rs:Network::get_intermediate_state"]}
{"id": "C35", "title": "add_layer accepts exactly the layers that fit and is all-or-nothing", "statement": "add_layer on an empty network always succeeds; on a non-empty network it succeeds exactly when the new layer's input shape equals the network's output shape, then the layer is appended in the network's mode; otherwise it returns Err and the network is unchanged.", "quantifier": "all networks and layers, for calls that return; they return for all well formed layers", "why_tests_cant": "every pair of network and layer", "anchors": ["src/network.rs:Network::add_layer"]}
{"id": "C36", "title": "infer computes the composition of the layers", "statement": "For a network of well formed layers, infer(x) with x of the network's input shape returns Ok, get_intermediate_state(0) is x, each later intermediate state is the layer's function of the previous one, and get_output is the last of them.", "quantifier": "all networks with at least one layer, of any depth, built from the four layer types, all inputs", "why_tests_cant": "every depth and composition", "anchors": ["src/network.rs:Network::infer", "src/network.rs:Network::get_output"]}
{"id": "C37", "title": "infer rejects bad input without side effects", "statement": "infer with a tensor of another shape, or on a network without layers, returns Err and leaves the network, in particular its last output, unchanged.", "quantifier": "all networks in any state and all inputs", "why_tests_cant": "every state and shape", "anchors": ["src/network.rs:Network::infer"]}
{"id": "C38", "title": "The result of infer depends only on the parameters and the input", "statement": "For a network of well formed layers, the output after infer(x) is the same whatever calls to infer, backward and mode switches preceded it.", "quantifier": "all networks, all finite histories of infer/backward/mode switches, all inputs", "why_tests_cant": "unbounded histories, stale buffers only show for particular orders of calls", "anchors": ["src/network.rs:Network::infer", "src/network.rs:Network::backward"]}
{"id": "C39", "title": "Training mode and inference mode give the same predictions", "statement": "For a network of well formed layers, the output of infer(x) is the same in training mode and in inference mode.", "quantifier": "all networks, all inputs; any float semantics where max(x,0) is x when x>0 and 0 otherwise on sums starting from 0 (proved for IEEE binary32)", "why_tests_cant": "every network and input", "anchors": ["src/network.rs:Network::infer", "src/network.rs:Network::switch_to_training", "src/network.rs:Network::switch_to_inference"]}
{"id": "C40", "title": "Output and intermediate-state getters report exactly what exists", "statement": "new gives a network without layers in the mode asked for. As long as there are no layers get_input_shape and get_output_shape are 0x0x0. get_output is Err exactly on a network without layers and otherwise the last intermediate state, of shape get_output_shape; get_intermediate_state(id) is Ok exactly for id at most the number of layers on a non-empty network and never panics.", "quantifier": "all reachable networks, all ids", "why_tests_cant": "unbounded histories and ids", "anchors": ["src/network.rs:Network::get_output", "src/network.rs:Network::get_intermediate_state", "src/network.rs:Network::new", "src/network.rs:Network::get_input_shape", "src/network.rs:Network::get_output_shape"]}
{"id": "C41", "title": "The network reports the mode it was last put in, and its layers are in it", "statement": "After switch_to_training get_run_state is Training, after switch_to_inference it is Inference, add_layer keeps it, and at all times every layer's get_run_mode equals the network's get_run_state.", "quantifier": "all histories of API calls", "why_tests_cant": "unbounded histories of switches and additions", "anchors": ["src/network.rs:Network::switch_to_training", "src/network.rs:Network::switch_to_inference", "src/network.rs:Network::get_run_state", "src/network.rs:Network::add_layer"]}
{"id": "C42", "title": "backward is refused cleanly when it cannot run", "statement": "Network::backward returns Err without changing the network when the gradient has the wrong shape, when there are no layers, or when the network was last put in inference mode; in training mode it reaches the layers. It never panics by itself.", "quantifier": "all histories of API calls and all gradients", "why_tests_cant": "the failing sequence of calls is not in the tests", "anchors": ["src/network.rs:Network::backward", "src/network.rs:Network::switch_to_inference"]}
{"id": "C43", "title": "Network backward chains the layers' backward passes", "statement": "In training mode after infer(x), backward(g) feeds g to the last layer and each layer's outgoing gradient to the layer before it, with the input and output states of that layer; in exact arithmetic, for networks of well formed fully connected, max-pool and column softmax layers, at inputs where no ReLU or pooling is decided by a tie, backward(g) returns Ok and the gradient at the input is the derivative of <g, infer(x)> at x.", "quantifier": "all networks of any depth, all inputs without ties and all gradients; a max-pool layer with outputs has a non-empty input", "why_tests_cant": "every depth; a statement about derivatives over all reals", "anchors": ["src/network.rs:Network::backward"]}
{"id": "C44", "title": "Tensor serialisation round-trips", "statement": "For every tensor, deserialising the bytes bincode produces gives back a tensor equal in shape, strides and every bit of the data, also when further bytes follow; save_to_file then from_file returns the same tensor.", "quantifier": "all tensors, all trailing bytes; encodings shorter than 2^64 bytes", "why_tests_cant": "every shape and every f32 bit pattern", "anchors": ["src/tensor.rs:Tensor::save_to_file", "src/tensor.rs:Tensor::from_file", "src/tensor/helper.rs:TensorShape", "src/tensor/helper.rs:TensorStride"]}
{"id": "C45", "title": "Layer serialisation round-trips for all four layer types", "statement": "For every layer that passed construction, loading its get_serialized() into an empty layer succeeds and yields the same parameters, shapes, stride and name, whatever the iteration order of the hash maps in between.", "quantifier": "all layers of all four types, all hash-map iteration orders; encodings shorter than 2^64 bytes", "why_tests_cant": "iteration order of HashMap is randomised per process", "anchors": ["src/layer.rs:SerializedLayer", "src/layer/convolutional.rs:ConvolutionalLayer::get_serialized", "src/layer/fully_connected.rs:FullyConnectedLayer::get_serialized", "src/layer/max_pool.rs:MaxPoolLayer::get_serialized", "src/layer/softmax.rs:SoftmaxLayer::get_serialized"]}
{"id": "C46", "title": "A saved network loads back to one that predicts the same", "statement": "For every network built through the API, save_to_file followed by load_from_file into a new network of the same mode returns Ok, gives the same layers in the same order, and infer produces the same outputs for every input.", "quantifier": "all networks of any depth, all hash-map iteration orders, all inputs; encodings shorter than 2^64 bytes", "why_tests_cant": "every network and every iteration order", "anchors": ["src/network.rs:Network::save_to_file", "src/network.rs:Network::load_from_file", "src/network.rs:SerializedNetwork", "src/layer.rs:SerializedLayer::add_to_network"]}
{"id": "C47", "title": "A file cut short by a crash is never accepted", "statement": "If saving a tensor or a network is interrupted so that only a strict prefix of the bytes reached the file, loading that file returns Err and, for a network, leaves it unchanged.", "quantifier": "all tensors and networks, every crash point; encodings shorter than 2^64 bytes", "why_tests_cant": "every byte position of every file", "anchors": ["src/tensor.rs:Tensor::save_to_file", "src/tensor.rs:Tensor::from_file", "src/network.rs:Network::save_to_file", "src/network.rs:Network::load_from_file"]}
{"id": "C48", "title": "A failed load leaves the network as it was", "statement": "When load_from_file returns Err, the network is the same as before the call.", "quantifier": "all networks and all file contents", "why_tests_cant": "every file content and every position of the failing layer", "anchors": ["src/network.rs:Network::load_from_file", "src/network.rs:SerializedNetwork::populate_network"]}
{"id": "C49", "title": "Loading a layer rejects wrong types and missing fields without changing the layer", "statement": "load_from_serialized with data of another layer type, or lacking one of the required keys, returns Err and leaves the layer unchanged.", "quantifier": "all layers, all serialized data of any of the four kinds with any subset of keys", "why_tests_cant": "every subset of keys and every byte content", "anchors": ["src/layer.rs:Layer::load_from_serialized", "src/layer/convolutional.rs:load_from_serialized_data", "src/layer/fully_connected.rs:load_from_serialized_data", "src/layer/max_pool.rs:load_from_serialized_data", "src/layer/softmax.rs:load_from_serialized_data"]}
{"id": "C50", "title": "A tensor read from a file is usable", "statement": "If from_file returns Ok, then get_item and set_item on every inside index of the returned tensor do not panic.", "quantifier": "all file contents", "why_tests_cant": "every byte string", "anchors": ["src/tensor.rs:Tensor::from_file"]}
{"id": "C51", "title": "Inference never changes parameters and gradients are never applied behind the user's back", "statement": "infer, backward, switch_to_training, switch_to_inference, clear_gradients and apply_gradients leave every layer's weights, kernels, biases, stride, mask, shape and name as they were.", "quantifier": "all layers in any state, all arguments, all histories", "why_tests_cant": "unbounded histories", "anchors": ["src/layer.rs:Layer::apply_gradients", "src/layer/fully_connected.rs:impl Layer", "src/layer/convolutional.rs:impl Layer", "src/layer/max_pool.rs:impl Layer", "src/layer/softmax.rs:impl Layer"]}
{"id": "C52", "title": "Constructors give layers the shapes asked for", "statement": "TensorShape::new(a,b,c) has every dimension at least 1 and equal to the argument when positive; FullyConnectedLayer::new(n,m) has input shape (n,1,1) and output shape (m,1,1); ConvolutionalLayer::new and MaxPoolLayer::new have the given input shape and the output shape of the exact tiling, or return Err when there is none. The getters of a new layer report the given name, the shapes, and inference mode.", "quantifier": "all u32 arguments", "why_tests_cant": "all of u32 including zero", "anchors": ["src/tensor/helper.rs:TensorShape::new", "src/layer/fully_connected.rs:FullyConnectedLayer::new", "src/layer/convolutional.rs:ConvolutionalLayer::new", "src/layer/max_pool.rs:MaxPoolLayer::new", "src/layer/softmax.rs:SoftmaxLayer::new"]}
{"id": "C53", "title": "Tensor equality is what get_item can observe", "statement": "Two well formed tensors compare equal exactly when their shapes agree and get_item compares equal (as f32) at every inside index; in f32 that means the same bits or two zeros, and no NaN. The comparison is symmetric, transitive, and reflexive exactly on tensors without NaN; != is its negation. Tensors that compare equal can still be saved as different bytes (zeros of different sign).", "quantifier": "all well formed tensors, any float equality", "why_tests_cant": "every tensor, NaN included", "anchors": ["src/tensor.rs:impl PartialEq for Tensor"]}
{"id": "C54", "title": "get_norm is the Euclidean norm", "statement": "get_norm is the square root of the ordered sum of squares; in exact arithmetic it is nonnegative and zero exactly when every entry is zero.", "quantifier": "all well formed tensors", "why_tests_cant": "every tensor", "anchors": ["src/tensor.rs:Tensor::get_norm"]}
{"id": "C55", "title": "Networks of well formed layers never panic", "statement": "For a network built from layers whose construction succeeded with matching depths and one bias per kernel, whose shapes have representable element counts, no sequence of add_layer, infer, getters and mode switches panics, in either build profile.", "quantifier": "all such histories of any length, both build profiles", "why_tests_cant": "unbounded histories and all sizes", "anchors": ["src/network.rs:Network", "src/layer/convolutional.rs:ConvolutionalLayer", "src/layer/fully_connected.rs:FullyConnectedLayer", "src/layer/max_pool.rs:MaxPoolLayer", "src/layer/softmax.rs:SoftmaxLayer"]}
{"id": "C56", "title": "A training step never panics without convolutional layers", "statement": "For a network of well formed fully connected, max-pool and softmax layers that is in training mode, infer(x) followed by backward(g) with well formed tensors of the network's shapes always returns, and returns Ok when every softmax layer works on a column; a softmax layer on any other shape answers Err without changing anything.", "quantifier": "all histories in training mode, all networks of any depth of these layer types, all inputs and gradients, both build profiles; a max-pool layer with outputs has a non-empty input", "why_tests_cant": "histories and networks are unbounded, panics depend on the relation between buffers allocated at different times (construction, mode switch, add_layer)", "anchors": ["src/network.rs:Network::backward", "src/layer/softmax.rs:impl Layer", "src/layer/max_pool.rs:impl Layer", "src/layer/fully_connected.rs:impl Layer"]}
{"id": "C57", "title": "MaxPoolLayer::backward is the derivative away from ties", "statement": "In exact arithmetic, at an input where every window has one largest entry above the initial value of the search, the outgoing gradient that a forward and a backward call of a max-pool layer in training mode compute for incoming gradient g is the derivative of <g, forward(x)> with respect to the input.", "quantifier": "all well formed max-pool layers, inputs without ties, gradients, and all differentiable ways of varying the input", "why_tests_cant": "a statement about derivatives over all reals and all geometries, including overlapping windows", "anchors": ["src/layer/max_pool.rs:MaxPoolLayer::backward", "src/layer/max_pool.rs:MaxPoolLayer::forward"]}
{"id": "C58", "title": "Training accumulates the derivatives by the parameters of every layer", "statement": "In exact arithmetic, for a network in training mode of fully connected, max-pool and column softmax layers at a point without ties, infer(x) followed by backward(g) returns Ok and adds to each weight gradient and bias gradient of each fully connected layer the partial derivative of <g, infer(x)> by that weight or bias, at any depth of the network.", "quantifier": "all networks of any depth, all layers in them, all parameters, inputs and gradients; a max-pool layer with outputs has a non-empty input", "why_tests_cant": "needs the chain rule through networks of unbounded depth and exact derivatives; finite differences check single points to a tolerance", "anchors": ["src/network.rs:Network::backward", "src/layer/fully_connected.rs:FullyConnectedLayer::backward"]}
{"id": "C59", "title": "Loading a network never panics", "statement": "Network::load_from_file returns Ok or Err, and does not panic, whatever bytes the file contains.", "quantifier": "all networks and all file contents", "why_tests_cant": "every byte string", "anchors": ["src/network.rs:Network::load_from_file", "src/layer.rs:SerializedLayer::add_to_network", "src/layer/softmax.rs:load_from_serialized_data"]}
{"id": "C60", "title": "A layer is ready for use after loading", "statement": "After load_from_serialized returned Ok with the data of a well formed layer, the layer is well formed in the mode it is in: forward on an input of its shape returns Ok, and backward in training mode uses buffers of the new shapes.", "quantifier": "all pairs of layers of one type, both modes, all hash-map orders", "why_tests_cant": "every pair of old and new parameters", "anchors": ["src/layer/convolutional.rs:ConvolutionalLayer::fill_from_state", "src/layer/fully_connected.rs:FullyConnectedLayer::fill_from_state", "src/layer/max_pool.rs:MaxPoolLayer::fill_from_state", "src/layer/softmax.rs:SoftmaxLayer::load_from_serialized"]}
{"id": "C61", "title": "A failed save keeps the previous file", "statement": "If save_to_file returns Err, the file that was saved before under that name can still be read; files with other names are never changed.", "quantifier": "all tensors and all networks, all points at which writing can fail (networks: encodings shorter than 2^64 bytes, kernels in every convolutional layer of the earlier network)", "why_tests_cant": "every point of failure", "anchors": ["src/tensor.rs:Tensor::save_to_file", "src/network.rs:Network::save_to_file"]}
{"id": "C62", "title": "Running a network does not change what is saved", "statement": "No sequence of infer, backward, forward, mode switches and gradient calls, with any arguments and results, changes what get_serialized returns for a layer or what save_to_file writes for a network.", "quantifier": "all layers and networks, all finite sequences of calls", "why_tests_cant": "unbounded histories", "anchors": ["src/network.rs:SerializedNetwork::new_from_network", "src/layer.rs:Layer::get_serialized"]}
{"id": "C63", "title": "Loading appends to a network that fits and is refused otherwise", "statement": "Loading a file saved from a network into a network keeps the layers there and appends the saved ones, if the network is empty or its output shape is the input shape of the saved network; otherwise it returns Err and changes nothing.", "quantifier": "all pairs of networks of any depth, all hash-map orders", "why_tests_cant": "every pair of networks", "anchors": ["src/network.rs:Network::load_from_file", "src/network.rs:SerializedNetwork::populate_network"]}
{"id": "C64", "title": "Matrix products in f32 are accurate", "statement": "Every finite entry that matrix_multiply, matrix_multiply_transpose_first or matrix_multiply_transpose_second writes differs from the exact inner product of n terms by at most ((1+2^-24)^(n+1)-1) times the sum of the absolute products, plus n(1+2^-24)^n 2^-150. If the entries are finite, n < 2^22 and the absolute products add up to at most 2^125, nothing overflows; then for matrix_multiply the error is at most (n+1) 2^-23 times that sum plus n 2^-149.", "quantifier": "all f32 matrices of every size, IEEE binary32 round to nearest even, both build profiles", "why_tests_cant": "every size and every combination of roundings", "anchors": ["src/tensor.rs:Tensor::matrix_multiply", "src/tensor.rs:Tensor::matrix_multiply_transpose_first", "src/tensor.rs:Tensor::matrix_multiply_transpose_second"]}
{"id": "C65", "title": "Fully connected and convolutional layers are accurate in f32", "statement": "For finite parameters and input whose products and bias add up to at most 2^125 in absolute value, with n < 2^22 terms, forward writes a finite number that differs from the exact max(0, sum + bias) by at most (n+2) 2^-23 of that total plus (n+1) 2^-149, in both modes.", "quantifier": "all well formed layers of every size, all such inputs, IEEE binary32, both modes, both build profiles", "why_tests_cant": "every size and every combination of roundings", "anchors": ["src/layer/fully_connected.rs:FullyConnectedLayer::forward", "src/layer/convolutional.rs:ConvolutionalLayer::forward", "src/tensor.rs:Tensor::matrix_multiply_add_relu", "src/tensor/operations/convolution.rs:convolution_bias_relu"]}
{"id": "C66", "title": "Only softmax can output NaN", "statement": "Whatever its parameters and input, NaN and infinities included, a fully connected, convolutional or max-pool layer never outputs NaN; the first two never output a number with the sign bit set. A network whose last layer is not a softmax layer never outputs NaN.", "quantifier": "all f32 parameters and inputs, both modes, all well formed layers and networks of them", "why_tests_cant": "every bit pattern at every position", "anchors": ["src/layer/fully_connected.rs:FullyConnectedLayer::forward", "src/layer/convolutional.rs:ConvolutionalLayer::forward", "src/layer/max_pool.rs:MaxPoolLayer::forward", "src/network.rs:Network::infer"]}
{"id": "C67", "title": "Softmax in f32 never reverses the order of two entries", "statement": "Where the computed sum of exponentials is finite and not zero, softmax never writes a larger number at one entry than at another unless the exponential of the first is larger than that of the second.", "quantifier": "all f32 tensors of every shape, every exp that is never negative or NaN, IEEE division", "why_tests_cant": "every pair of entries and every rounding of the quotient", "anchors": ["src/tensor.rs:Tensor::softmax"]}
{"id": "C68", "title": "Softmax in f32 sums to 1 up to rounding", "statement": "For a non-empty tensor of n < 2^22 entries between -87 and 71, the exact sum of the numbers softmax writes differs from 1 by at most (2n+1) 2^-23 + n 2^-150.", "quantifier": "all such f32 tensors, every accurate exp, IEEE binary32", "why_tests_cant": "every length and every combination of roundings", "anchors": ["src/tensor.rs:Tensor::softmax"]}
{"id": "C69", "title": "forward reports tensors of the wrong shape", "statement": "If the input is not of the shape get_input_shape reports or the output is not of the shape get_output_shape reports, forward returns Err and leaves the output tensor as it was.", "quantifier": "all layers of the four types, all input and output tensors, both modes, both build profiles", "why_tests_cant": "every combination of wrong shapes, including ones that happen to have the right number of entries", "anchors": ["src/layer/fully_connected.rs:FullyConnectedLayer::forward", "src/layer/convolutional.rs:ConvolutionalLayer::forward", "src/layer/max_pool.rs:MaxPoolLayer::forward", "src/layer/softmax.rs:SoftmaxLayer::forward"]}
{"id": "C70", "title": "A layer that fill_from_state accepted can run on the shape it reports", "statement": "After fill_from_state was given well formed tensors, forward on an input of get_input_shape and an output of get_output_shape returns Ok and computes the layer's function.", "quantifier": "all parameter tensors, all inputs of the reported shape, both modes, both build profiles", "why_tests_cant": "every combination of parameter shapes that the checks let through", "anchors": ["src/layer/fully_connected.rs:FullyConnectedLayer::fill_from_state", "src/layer/convolutional.rs:ConvolutionalLayer::fill_from_state", "src/layer/max_pool.rs:MaxPoolLayer::fill_from_state"]}
{"id": "C71", "title": "get_norm in f32 is accurate in range, and its limits", "statement": "For n < 2^22 finite entries whose squares add up to at most 2^125, get_norm is finite, not negative, and differs from the Euclidean norm by at most (n+2) 2^-23 of it plus 2 sqrt(n 2^-149). For every tensor, get_norm is NaN exactly if some entry is, and otherwise its sign bit is clear. Outside that range it can be infinite although the norm is 2^64, and 0 although the norm is 2^-80.", "quantifier": "all well formed f32 tensors of every shape, every bit pattern, IEEE binary32 with correctly rounded square root", "why_tests_cant": "every size, every bit pattern and every combination of roundings", "anchors": ["src/tensor.rs:Tensor::get_norm"]}
{"id": "C72", "title": "Gradients of fully connected layers are accurate in f32", "statement": "In training mode, for finite g, parameters and input within range (fewer than 2^22 outputs, totals at most 2^125), forward(x) then backward(g) writes an outgoing gradient that differs from the exact W^T(m.g), where m selects the positive outputs, by at most (n+1) 2^-23 of the sum of absolute products plus n 2^-149; the stored bias gradient is the old one plus m.g up to a relative 2^-24, the stored weight gradient is the old one plus (m.g)x^T up to 2^-24 of the old one, 2^-21 of the product and 2^-148. After clear_gradients and any number N of rounds a finite bias gradient differs from the exact sum by at most (1+2^-24)^N - 1 times the sum of absolute values.", "quantifier": "all well formed fully connected layers of every size in training mode, all such inputs and gradients, all finite sequences of rounds, IEEE binary32, both build profiles", "why_tests_cant": "every size, every number of rounds and every combination of roundings", "anchors": ["src/layer/fully_connected.rs:FullyConnectedLayer::backward", "src/layer/fully_connected.rs:FullyConnectedLayer::forward", "src/layer/fully_connected.rs:FullyConnectedLayer::clear_gradients", "src/tensor.rs:Tensor::matrix_multiply_transpose_first"]}
{"id": "C73", "title": "Softmax entries are accurate in f32", "statement": "For a tensor of n < 2^22 finite entries between -87 and 71, every entry that softmax writes is finite and differs from the exact normalised exponential exp(x_i)/sum exp(x_j) of the f32 inputs by at most (3n+40) 2^-23 of it, plus 2^-150.", "quantifier": "all well formed f32 tensors of every shape within these ranges; any exp with relative error 2^-20; both build profiles", "why_tests_cant": "every size, every bit pattern and every combination of roundings", "anchors": ["src/tensor.rs:Tensor::softmax"]}
{"id": "C74", "title": "Predictions of whole networks in f32 are accurate", "statement": "Take a network built through the API, exact inputs xi of at most M in absolute value and an f32 input within e of them. Layer by layer, M and e grow to AM+B and Ae + (n+2) 2^-23 (A(M+e)+B) + (n+1) 2^-149 in a fully connected or convolutional layer (A bounds the absolute row sums of the weights, B the biases, n the number of terms, A(M+e)+B at most 2^125), stay as they are in a max-pool layer, and become 1 and exp(2e) - 1 + (3n+40) 2^-23 + 2^-150 in a softmax layer (M+e at most 71). Then infer returns Ok, every entry of the output is finite and within the final e' of what the layers compute of xi in exact real arithmetic. Two outputs that differ by more than 2e' in exact arithmetic come out in the right order.", "quantifier": "all networks built from well formed layers in any number and order, in both modes, all inputs, all layer parameters within these ranges, IEEE binary32, any exp with relative error 2^-20, both build profiles", "why_tests_cant": "every architecture, every parameter and every input; tests have no exact result to compare with", "anchors": ["src/network.rs:Network::infer", "src/network.rs:Network::get_output", "src/layer/fully_connected.rs:FullyConnectedLayer::forward", "src/layer/convolutional.rs:ConvolutionalLayer::forward", "src/layer/max_pool.rs:MaxPoolLayer::forward", "src/layer/softmax.rs:SoftmaxLayer::forward"]}
{"id": "C75", "title": "Random fills stay within their bounds", "statement": "fill_with_uniform(min, max) with finite min <= max, whose distance divided by 1 - 2^-23 does not overflow f32 (a distance of at most 2^127 suffices), returns, keeps the shape, and sets every entry to a finite f32 v with min <= v <= max; with any other bounds it panics. fill_with_gaussian(mean, std_dev) panics exactly if std_dev is not finite, and otherwise sets every entry to mean + std_dev z with its own standard normal sample z.", "quantifier": "all well formed f32 tensors, all bit patterns of the bounds, every sequence of random words, both build profiles", "why_tests_cant": "a test sees a few samples of a few ranges; that rounding never pushes a sample past a bound must hold for every range and every random word", "anchors": ["src/tensor.rs:Tensor::fill_with_uniform", "src/tensor.rs:Tensor::fill_with_gaussian"]}
{"id": "C76", "title": "Debug and release builds differ only in overflow panics", "statement": "A client program, i.e. any sequence of calls of public functions in which the choice of each call and its arguments may depend on everything returned before, behaves the same in a debug and in a release build: same result, same files written, same panic. The only exception is that the debug build may panic on arithmetic overflow where the release build wraps and goes on. So a program that does not panic in a debug build has the same outcome in a release build, and a program that panics in a release build panics in a debug build. The same holds for networks of layers written by the client, if it holds of the methods of these layers.", "quantifier": "all client programs and all arguments, all initial file contents, all choices of the environment (random words, hash order, failing writes), IEEE binary32, any exp", "why_tests_cant": "tests run one profile, and only on programs and values chosen in advance", "anchors": ["src/tensor.rs:Tensor", "src/tensor/helper.rs:TensorShape::total_size", "src/tensor/operations/convolution.rs:check_convolution_dimensions", "src/tensor/operations/convolution.rs:convolution_backprop_outgoing_gradient", "src/layer.rs:Layer", "src/network.rs:Network"]}
{"id": "C77", "title": "Networks with small fixed-point parameters compute without rounding error", "statement": "If the inputs of a network of fully connected, convolutional and max-pool layers are multiples of 2^-p, the weights of each layer multiples of 2^-q and its biases multiples of 2^-(p+q), with p growing by q from layer to layer, and the largest sum each layer can reach is at most 2^24 units of its last place, then infer succeeds and returns exactly what the network computes in exact arithmetic, and outputs compare as in exact arithmetic. In particular integer networks are exact up to 2^24. Beyond that limit it fails: max(0, x + 1) returns 2^24 for the input 2^24. matrix_multiply is exact under the same conditions.", "quantifier": "all networks built with add_layer whose layers meet the conditions, all inputs on the grid, both build profiles, IEEE binary32", "why_tests_cant": "whether some input among 2^24 values in each position is rounded somewhere inside the network cannot be sampled", "anchors": ["src/network.rs:Network::infer", "src/layer/fully_connected.rs:FullyConnectedLayer::forward", "src/layer/convolutional.rs:ConvolutionalLayer::forward", "src/layer/max_pool.rs:MaxPoolLayer::forward", "src/tensor.rs:Tensor::matrix_multiply"]}
{"id": "C78", "title": "Networks without negative weights are monotone in spite of rounding", "statement": "Take a network of fully connected, convolutional and max-pool layers that was built through the API, has no negative weight, and whose sums stay below 2^125 for inputs of at most M in absolute value. If every entry of one input is at least that of another, both within M, then infer returns Ok for both, and every output entry for the first is at least that for the second: the ordering of the f32 results is exact, not up to rounding. Without the range condition it is false: one overflow makes a larger input give a smaller output.", "quantifier": "all such networks (any number, size and order of layers, any biases), all pairs of inputs, both build profiles, both run states", "why_tests_cant": "Rounding makes every sum deviate; that no combination of roundings ever inverts an order, for all weights and all pairs of inputs, cannot be sampled. Accumulating in another order for different inputs, or a non-monotone rounding step, would show up only on rare pairs.", "anchors": ["src/network.rs:Network::infer", "src/layer/fully_connected.rs:FullyConnectedLayer::forward", "src/layer/convolutional.rs:ConvolutionalLayer::forward", "src/layer/max_pool.rs:MaxPoolLayer::forward", "src/tensor.rs:Tensor::matrix_multiply", "src/tensor/operations/convolution.rs"]}
{"id": "C79", "title": "Convolution and max pooling only look at their window, and commute with shifts", "statement": "In any network that was assembled with add_layer and whose first m layers are convolutions (with at least one kernel) and max pooling, the entries of intermediate state m at row i, column j depend on nothing but a patch of the input: the rows from i*J to i*J+R-1 and columns from j*J to j*J+C-1 in all channels, where J is the product of the strides and R, C follow from the window sizes (for one more layer in front with stride s and window w: (R-1)*s+w). If two inputs have equal patches, possibly at different positions (i,j) and (i',j'), the states are bit for bit equal at these positions, in every channel, in debug and release builds. When no window is empty the patches tile the input: (rows of the state - 1)*J + R is the number of rows of the input, and the same for columns. Hence shifting the input by p*J rows and q*J columns shifts the state by p rows and q columns, wherever both are defined.", "quantifier": "all networks assembled by successful or failed add_layer calls, inferences, backward passes and mode switches; all m; all pairs of inputs; all output positions and shifts; any floating-point arithmetic; both build profiles", "why_tests_cant": "Independence of everything outside a patch quantifies over all pairs of images that agree on the patch, and equivariance over all images, positions and depths of the stack; a test compares single outputs with single expected values.", "anchors": ["src/tensor/operations/convolution.rs:convolution_bias", "src/tensor/operations/convolution.rs:convolution_bias_relu", "src/tensor.rs:Tensor::max_pool", "src/layer/convolutional.rs:ConvolutionalLayer::forward", "src/layer/max_pool.rs:MaxPoolLayer::forward", "src/network.rs:Network::infer", "src/network.rs:Network::get_intermediate_state"]}
{"id": "C80", "title": "The sign of zero in the input does not change predictions", "statement": "Two input tensors that compare equal with == (same shape, no NaN, the same f32 numbers, where 0.0 and -0.0 count as the same) give predictions that compare equal in every network of fully connected, convolutional and max-pool layers. If the first layer that is not max pooling is fully connected or convolutional, or if exp has the same value at both zeros, the outputs and all later intermediate states even have the same bits, also with softmax layers, infinities and NaN later on.", "quantifier": "all networks built through the API, all pairs of inputs that are ==, all f32 parameters including NaN and infinities, both build profiles, both run states", "why_tests_cant": "A product with a zero of the other sign is a zero of the other sign, and 1/0.0 differs from 1/-0.0; that no combination of parameters and layers lets the sign through depends on all sums starting from 0.0 and on every comparison, which a test with a few inputs does not exercise.", "anchors": ["src/tensor.rs:impl PartialEq for Tensor", "src/tensor.rs:Tensor::matrix_multiply_add_relu", "src/tensor.rs:Tensor::max_pool", "src/tensor/operations/convolution.rs:convolution_bias_relu", "src/network.rs:Network::infer"]}
{"id": "C81", "title": "A panic that is caught leaves the object as it was", "statement": "If a call to fill_from_state or load_from_serialized of a layer, or to add_layer, load_from_file, switch_to_training or switch_to_inference of a network panics and the caller catches the panic (catch_unwind), the object is as it was before the call and can be used further.", "quantifier": "all four layer types and networks of them, all arguments, all files, both build profiles, every panic", "why_tests_cant": "A test would need an input for every place where each method can panic, between any two assignments to self, and would have to compare the whole object afterwards; most of those panics need sizes beyond u32 or damaged files.", "anchors": ["src/layer/softmax.rs:SoftmaxLayer::load_from_serialized", "src/layer/fully_connected.rs:FullyConnectedLayer::fill_from_state", "src/layer/convolutional.rs:ConvolutionalLayer::fill_from_state", "src/layer/max_pool.rs:MaxPoolLayer::fill_from_state", "src/network.rs:Network::add_layer", "src/network.rs:Network::load_from_file", "src/network.rs:Network::switch_to_training"]}
{"id": "C82", "title": "A convolutional layer is a fully connected layer applied to every window", "statement": "Let a fully connected layer have one output per kernel of a convolutional layer, the entries of kernel o in storage order as row o of its weights, and the same biases. At every output position the convolutional layer's forward gives, channel by channel and to the last bit, the outputs the fully connected layer's forward gives for the column of the entries under the window. With kernels as large as the image both layers compute the same from the same data vector.", "quantifier": "all well formed convolutional layers, all strides and kernel sizes, all inputs, all positions and channels, both modes of either layer, both build profiles", "why_tests_cant": "Equality to the last bit for all parameters depends on both loop nests adding the products in the same order; a test compares a few rounded values, usually with a tolerance.", "anchors": ["src/layer/convolutional.rs:ConvolutionalLayer::forward", "src/layer/fully_connected.rs:FullyConnectedLayer::forward", "src/tensor/operations/convolution.rs:convolution_bias_relu", "src/tensor.rs:Tensor::matrix_multiply_add_relu"]}
{"id": "C83", "title": "backward can be repeated after one forward", "statement": "After one training-mode forward, calling a layer's backward again with the same input, output and gradient and no forward in between returns the same outgoing gradient, and changes the stored gradients by the same amounts as the first call did.", "quantifier": "all well formed layers in training mode, all inputs and gradients of matching shape, any number of calls, both build profiles", "why_tests_cant": "needs all sequences of calls; the tests call backward once per forward", "anchors": ["src/layer/fully_connected.rs:FullyConnectedLayer::backward", "src/layer/max_pool.rs:MaxPoolLayer::backward", "src/layer/softmax.rs:SoftmaxLayer::backward", "src/layer/convolutional.rs:ConvolutionalLayer::backward", "src/network.rs:Network::backward"]}
{"id": "C84", "title": "Small changes of the input move the predictions by a bounded amount", "statement": "Take a network built through the API and two f32 inputs of at most M in absolute value that differ by at most d in every entry. Layer by layer, d becomes A d in a fully connected or convolutional layer (A bounds the absolute row sums of the weights), stays in a max-pool layer and becomes exp(2d) - 1 in a softmax layer; call the result d'. Then both calls of infer return Ok and every pair of outputs differs by at most d' + 2e', where e' is the rounding error bound of C74 for exact inputs. Hence, if one call of infer gives two outputs that differ by more than 2(d' + 2e'), then for every input within d infer puts these two outputs in the same order.", "quantifier": "all networks built from well formed layers in any number and order, in both modes, all pairs of inputs, all layer parameters within the ranges of C74, IEEE binary32, any exp with relative error 2^-20, both build profiles", "why_tests_cant": "all inputs near a given one: about 2^32 values per entry", "anchors": ["src/network.rs:Network::infer", "src/network.rs:Network::get_output", "src/layer/fully_connected.rs:FullyConnectedLayer::forward", "src/layer/convolutional.rs:ConvolutionalLayer::forward", "src/layer/max_pool.rs:MaxPoolLayer::forward", "src/layer/softmax.rs:SoftmaxLayer::forward"]}
{"id": "C85", "title": "Shorthands for shapes and indices and the layer setters do what they say", "statement": "new_1d(d) has exactly the indices (i,0,0) with i < d, new_2d(d,e) exactly (i,j,0) with i < d and j < e, new(d,e,f) the sizes max(d,1), max(e,1), max(f,1), and transpose_ij swaps the first two sizes. On a well formed tensor index_1d(i), index_2d(i,j) and zero() give elements i, i + di*j and 0 of the data. fill_weights_with_value(v) gives every weight the value v and changes nothing else, fill_bias_with_value(v) does the same for the biases; they can be called in either order and the last call wins. A fully connected layer filled with v and c gives every output the same value, that of v x_0 + v x_1 + ... + c cut off at zero.", "quantifier": "all u32 sizes and indices, all well formed tensors and layers in both modes, all values, any floating-point arithmetic, both build profiles", "why_tests_cant": "all sizes, indices, layers and values", "anchors": ["src/tensor/helper.rs:TensorShape::new", "src/tensor/helper.rs:TensorShape::new_1d", "src/tensor/helper.rs:TensorShape::new_2d", "src/tensor/helper.rs:TensorShape::fits_index", "src/tensor/helper.rs:TensorShape::transpose_ij", "src/tensor/helper.rs:TensorIndex::index_1d", "src/tensor/helper.rs:TensorIndex::index_2d", "src/tensor/helper.rs:TensorIndex::zero", "src/layer/fully_connected.rs:FullyConnectedLayer::fill_weights_with_value", "src/layer/fully_connected.rs:FullyConnectedLayer::fill_bias_with_value"]}
{"id": "C86", "title": "The numbering of hidden units does not matter beyond rounding", "statement": "If the units of a fully connected layer are renumbered, its outputs are renumbered in the same way, bit for bit. If the layer is followed by a fully connected layer whose inputs are renumbered accordingly, the two networks (with any layers before and after) compute the same in exact arithmetic, and the f32 outputs of infer differ by at most the sum of the two rounding error bounds of C74. They can differ: 2^24 + 1 + 1 gives 2^24 from left to right and 2^24 + 2 from right to left.", "quantifier": "all renumberings, all networks built through the API with two adjacent fully connected layers, all inputs and parameters within the ranges of C74, IEEE binary32 (the first claim: any arithmetic), both modes and build profiles", "why_tests_cant": "all permutations, architectures, parameters and inputs", "anchors": ["src/layer/fully_connected.rs:FullyConnectedLayer::forward", "src/tensor.rs:Tensor::matrix_multiply", "src/tensor.rs:Tensor::matrix_multiply_add_relu", "src/network.rs:Network::infer"]}
{"id": "C87", "title": "The size of a saved file, and what its bytes determine", "statement": "A saved tensor with n entries takes 32 + 4n bytes. A saved network takes 8 bytes plus, per layer, the bytes of its name and 56 + 64 + 4(weights + biases) for a fully connected layer, 96 for a max-pool layer, 56 for a softmax layer and 112 plus the bytes of all kernel and bias tensors for a convolutional layer, whatever the order in which the hash maps are iterated. Two networks saved to the same bytes have the same layers with the same parameters and names. A saved network that is loaded and saved again with the same iteration order gives the same file, byte for byte.", "quantifier": "all tensors; all networks (for the last two claims: built through the API from well formed layers, with kernels in every convolutional layer, and file size below 2^64), all hash-map iteration orders, both modes and build profiles", "why_tests_cant": "all networks and all iteration orders of a hash map, which change from run to run", "anchors": ["src/network.rs:Network::save_to_file", "src/network.rs:Network::load_from_file", "src/network.rs:SerializedNetwork::new_from_network", "src/tensor.rs:Tensor::save_to_file", "src/layer/fully_connected.rs:FullyConnectedLayer::get_serialized", "src/layer/max_pool.rs:MaxPoolLayer::get_serialized", "src/layer/softmax.rs:SoftmaxLayer::get_serialized", "src/layer/convolutional.rs:ConvolutionalLayer::get_serialized"]}
{"id": "C88", "title": "A small step against the recorded gradients lowers the loss", "statement": "In exact arithmetic: call infer(x) and backward(g), where g is the gradient of a loss at the prediction, and replace the weights and biases of all fully connected layers by their values minus eta times what backward added to their gradients. The loss of the prediction for x then has the derivative -(sum of the squares of these gradients) at eta = 0; if one of them is not zero, every small enough eta > 0 lowers the loss. This is the case if the last layer is fully connected and the loss depends on one of its positive outputs. Squared error and cross entropy are such losses.", "quantifier": "all networks of fully connected, max-pool and column softmax layers in training mode, all inputs at which no pre-activation is zero and no pooling window has a tie, all losses with a gradient, both build profiles; a max-pool layer with outputs has a non-empty input", "why_tests_cant": "all networks, inputs and losses; a test sees single steps, and rounding hides small decreases", "anchors": ["src/network.rs:Network::infer", "src/network.rs:Network::backward", "src/layer/fully_connected.rs:FullyConnectedLayer::backward"]}
{"id": "C89", "title": "Gradients recorded by whole fully connected networks in f32 are close to the true derivatives", "statement": "Take a network of fully connected layers in training mode with finite parameters and cleared gradients, an input near exact numbers and an output gradient near exact numbers. If magnitudes stay in range and every pre-activation is, in exact arithmetic, further from zero than its rounding error bound, then infer and backward return Ok, and every recorded weight gradient, every recorded bias gradient and the gradient left at the input is finite and within an explicit bound of the partial derivative of <g, network(x)> in exact arithmetic. The bounds pass from layer to layer: forward through row sums of the weights, backward through column sums.", "quantifier": "all networks of fully connected layers of fewer than 2^22 rows and columns, all inputs, gradients and finite parameters within the bounds, both build profiles", "why_tests_cant": "a numerical gradient check samples points and cannot separate rounding errors from wrong gradients; the bound holds for all networks and inputs in range", "anchors": ["src/network.rs:Network::infer", "src/network.rs:Network::backward", "src/layer/fully_connected.rs:FullyConnectedLayer::backward"]}
{"id": "C90", "title": "Using a network does not make it grow", "statement": "Count every number a network stores: parameters, gradients, masks, positions of maxima, and the tensors between the layers. Whatever happened before, infer and backward leave this count unchanged, also when they refuse their argument. After switch_to_training and after switch_to_inference the count is a formula in the shapes of the layers alone, so the switch to inference always gives the training buffers back. At all times the count is bounded by such a formula.", "quantifier": "all histories of new, add_layer, infer, backward, switch_to_training and switch_to_inference with well formed layers and tensors, both build profiles", "why_tests_cant": "a leak that appends to a list in some order of calls shows only in long runs of that order; the count is shown for all orders and lengths", "anchors": ["src/network.rs:Network::infer", "src/network.rs:Network::backward", "src/network.rs:Network::switch_to_training", "src/network.rs:Network::switch_to_inference", "src/network.rs:Network::add_layer"]}
{"id": "C91", "title": "Training on several examples adds up the gradients of the examples", "statement": "Call infer and backward once for each example of a list, on a network in training mode that was never cleared in between. All calls succeed. The value added to a weight or bias gradient by an example depends on the parameters of the network and on that example alone, not on the state of the buffers or on the examples before it, and the values are added in the order of the examples. In exact arithmetic the order of the examples does not matter, and the total added to a weight or bias gradient is the derivative, by this parameter, of the sum over the examples of the inner product of g and the output of infer(x).", "quantifier": "all networks that can be built and trained whose layers have a backward pass, all states, all lists of examples of the right shapes, all arithmetics (order and derivatives: exact arithmetic), both build profiles", "why_tests_cant": "state carried from one example to the next (a mask, an intermediate gradient that is not cleared) shows only for particular sequences of examples", "anchors": ["src/network.rs:Network::infer", "src/network.rs:Network::backward", "src/layer/fully_connected.rs:FullyConnectedLayer::backward"]}
{"id": "C92", "title": "backward is linear in the gradient it is given", "statement": "After the same infer call backward with g1, with g2, or with a * g1 + c * g2. In exact arithmetic what the last call adds to any weight or bias gradient is a times what the first adds plus c times what the second adds; a zero gradient adds nothing. This holds at all inputs, also where relu or max pooling have no derivative.", "quantifier": "all networks that can be built and trained whose layers have a backward pass, all states, inputs, gradients and factors, both build profiles", "why_tests_cant": "an offset or a clamp in one of the backward passes shows only for some gradients; tests check single gradients", "anchors": ["src/network.rs:Network::backward", "src/layer/fully_connected.rs:FullyConnectedLayer::backward", "src/layer/max_pool.rs:MaxPoolLayer::backward", "src/layer/softmax.rs:SoftmaxLayer::backward"]}
{"id": "C93", "title": "In f32 the opposite gradient gives the opposite training step", "statement": "After the same infer call backward with g, or with g negated. Starting from cleared gradients, every weight and bias gradient recorded by the second call is exactly the negation of the one recorded by the first: the same magnitude to the last bit with the other sign, except that the sign of a zero is not determined and that NaN goes with NaN. Rounding, overflow and underflow do not break this.", "quantifier": "all f32 networks that can be built and trained whose layers have a backward pass, all states, inputs and gradients including infinities and NaN, any exp of the platform, both build profiles", "why_tests_cant": "needs symmetry of rounding in every intermediate result; tests compare single values with a tolerance", "anchors": ["src/network.rs:Network::backward", "src/layer/fully_connected.rs:FullyConnectedLayer::backward", "src/layer/max_pool.rs:MaxPoolLayer::backward", "src/layer/softmax.rs:SoftmaxLayer::backward"]}
{"id": "C94", "title": "A panic inside infer or backward does not damage the network", "statement": "However a call of infer or backward ends - with Ok, with Err or with a panic that the caller catches - no layer's parameters, name or mode change, the shapes and the mode of the network stay, and save_to_file would write the same bytes; infer leaves the gradients, backward leaves the states and get_output. After a backward that panicked, a mode switch gives exactly the network it would have given without that call. After any sequence of infer, backward and mode switches with arbitrary arguments, some of which panicked, the next infer with a well formed input gives the same states and output as on a network without those calls. After any sequence of infer with arbitrary arguments and backward with well formed gradients, some of which panicked, a network in training mode without convolutional layers still trains: the next infer and backward return, with Ok if every layer can propagate backwards.", "quantifier": "all networks and layers, all arguments including tensors of the wrong shape or with inconsistent fields, any way the calls end, both build profiles; for predictions all networks built with the API and all histories", "why_tests_cant": "a panic can come between any two of thousands of writes; tests do not look at an object after a panic", "anchors": ["src/network.rs:Network::infer", "src/network.rs:Network::backward", "src/layer/fully_connected.rs:FullyConnectedLayer::backward", "src/layer/convolutional.rs:ConvolutionalLayer::backward", "src/layer/max_pool.rs:MaxPoolLayer::forward", "src/layer/softmax.rs:SoftmaxLayer::backward", "src/tensor.rs:Tensor::max_pool_track_origin", "src/tensor.rs:Tensor::matrix_multiply"]}
{"id": "C95", "title": "Two max pooling steps are one step with a larger mask", "statement": "Pooling an image with mask m1 and stride s1 and then the result with mask m2 and stride s2 gives the same numbers as pooling the image once with mask m1+(m2-1)*s1 and stride s1*s2, provided the first windows leave no gaps (s1 <= m1 on both axes) and m2 is not empty. The combined step fits the image whenever the two steps do, and gives as many outputs as the second one. In single precision NaN and infinite entries are covered; only the sign of a zero may differ. In exact arithmetic the two tensors are equal. The same holds for max pool layers in any modes.", "quantifier": "all images, masks, strides and result buffers that fit, any depth, both build profiles, single precision (all bit patterns) and exact arithmetic", "why_tests_cant": "relates three calls with unboundedly many geometries; the answer for NaN and signed zeros depends on the order in which entries are met", "anchors": ["src/tensor.rs:Tensor::max_pool", "src/tensor.rs:Tensor::max_pool_track_origin", "src/tensor.rs:Tensor::check_max_pooling_dimensions", "src/layer/max_pool.rs:MaxPoolLayer::forward"]}
{"id": "C96", "title": "A network can be cut in two", "statement": "Take a network whose layers have the parameters of the layers of a first network followed by those of a second one. infer of the whole gives the output that the second network gives for the output of the first, bit for bit, and its intermediate states are those of the first and then those of the second. In training mode, calling infer and backward on the second network alone, with the output of the first as input, collects the same gradients in its layers as calling them on the whole network.", "quantifier": "all networks built with the API in any modes and with any history, all well formed inputs and loss gradients, any cut, both build profiles; training for layers that have a backward pass", "why_tests_cant": "relates the states of three networks at every depth and for every input", "anchors": ["src/network.rs:Network::infer", "src/network.rs:Network::backward", "src/network.rs:Network::get_output", "src/network.rs:Network::get_intermediate_state"]}
{"id": "C97", "title": "Units and channels have nothing to do with each other", "statement": "The output of a unit of a fully connected layer depends on its own weights and bias only, and an output channel of a convolutional layer on its own kernel and bias only: two layers that share a unit or a channel, at different places and with different neighbours, compute the same value for it, bit for bit, in any modes. During training a unit of a fully connected layer records gradients that depend on the inputs and on its own entry of the incoming gradients only. In f32, a unit whose pre-activation is not positive records nothing, and the weights of an input that is zero record nothing, however many rounds of forward and backward are run on finite numbers.", "quantifier": "all well formed fully connected and convolutional layers of any sizes and modes, all inputs, any number of rounds with any gradients, both build profiles", "why_tests_cant": "compares arbitrary layers that have nothing in common except one unit, over training histories of any length", "anchors": ["src/layer/fully_connected.rs:FullyConnectedLayer::forward", "src/layer/fully_connected.rs:FullyConnectedLayer::backward", "src/layer/convolutional.rs:ConvolutionalLayer::forward"]}
{"id": "C98", "title": "Networks of layers that a client defines", "statement": "Layer is a public trait, and a network makes no assumption about the layers it is given. After any history of calls, infer with a tensor of the right shape calls forward of every layer once, in order, each on the tensor the layer before has written, up to the first Err or panic; backward in training mode calls backward of every layer once, from the last to the first, each with the states before and behind it and the gradient the layer behind it has handed on. Calls that are refused call no layer. add_layer first switches the layer to the network's mode, then compares its input shape with the output shape of the last layer, then refuses it and changes nothing or appends it. If forward of the layers computes functions that the other methods do not change, the network computes their composition in the order of add_layer, whatever was called in between.", "quantifier": "all implementations of the trait whose methods are functions of their arguments, all histories of API calls, all inputs and gradients, both build profiles", "why_tests_cant": "quantifies over all layer implementations, including ones that panic, return Err or keep state", "anchors": ["src/layer.rs:Layer", "src/network.rs:Network::add_layer", "src/network.rs:Network::infer", "src/network.rs:Network::backward", "src/network.rs:Network::switch_to_training"]}
{"id": "C99", "title": "A loaded network stores no more numbers than its file has room for", "statement": "A tensor loaded from a file holds at most as many numbers as the file has room for (32 bytes of header and 4 bytes per number), whatever the file contains. After Network::load_from_file, whether it returns Ok or Err, the network stores no more numbers than it stored before plus one for every four bytes of the file. In particular a small file cannot make the program allocate a large amount of memory.", "quantifier": "all files (any bytes), all networks loaded into, both build profiles", "why_tests_cant": "quantifies over all byte sequences, including ones no save has written", "anchors": ["src/network.rs:Network::load_from_file", "src/network.rs:Network::add_layer", "src/tensor.rs:Tensor::from_file", "src/layer/softmax.rs:SoftmaxLayer::load_from_serialized_data"]}
{"id": "C100", "title": "No result depends on which NaN the platform produces", "statement": "IEEE 754 leaves the sign and payload of NaN results open, and processors differ. Take two platforms that otherwise compute by IEEE 754 with the same exponential function. Any sequence of calls of add_layer, load_from_file, switch_to_training, switch_to_inference, infer and backward on the same network with the same arguments panics on both or on neither, returns the same Ok and Err values with the same messages, and leaves networks whose stored numbers are bit for bit the same, except that where one has a NaN the other may have a different NaN. If the output of one contains no NaN, the other has the same output.", "quantifier": "all networks and tensors (also malformed ones), all sequences of calls, all files, all choices of NaN (even a different one for every operation and argument), both build profiles", "why_tests_cant": "a test runs on one processor; quantifies over all networks, inputs and choices of NaN", "anchors": ["src/network.rs:Network::infer", "src/network.rs:Network::backward", "src/network.rs:Network::load_from_file", "src/tensor.rs:Tensor::max_pool_track_origin", "src/tensor.rs:Tensor::softmax"]}
{"id": "C101", "title": "Without softmax, results do not depend on the platform", "statement": "The only operations of the program that IEEE 754 and Rust leave to the platform are f32::exp, the sign of the zero that f32::max returns for two zeros, and the bits of NaN. Any sequence of calls of add_layer, load_from_file, switch_to_training, switch_to_inference, infer and backward that starts from a network without softmax layers and adds none (neither by add_layer nor from a file) gives on all platforms the same panics, the same Ok and Err values and the same stored numbers, up to the sign of zeros and the bits of NaN. Outputs without NaN compare equal with ==.", "quantifier": "all networks without softmax layers (also malformed ones), all sequences of such calls, all tensors and files, all pairs of platforms, both build profiles", "why_tests_cant": "a test runs on one platform; quantifies over all networks, inputs and implementations of exp, max and NaN", "anchors": ["src/network.rs:Network::infer", "src/network.rs:Network::backward", "src/tensor.rs:Tensor::relu_self_and_store_mask", "src/tensor.rs:Tensor::matrix_multiply_add_relu", "src/tensor/operations/convolution.rs:convolution_bias_relu"]}
{"id": "C102", "title": "A softmax layer at the end does not change the ranking", "statement": "If the last layer of a network is a softmax layer, then after infer the state in front of it (get_intermediate_state of the number of layers minus one) holds the scores and get_output the probabilities. In exact arithmetic the probabilities are positive, add up to 1, and two of them are smaller, equal or larger exactly as the scores are, so the predicted class is the same. The scores are the output of the same network without that layer. In f32, where the computed sum of the exponentials is finite and not zero, no two outputs are ordered against the exponentials of their scores (they can become equal).", "quantifier": "all networks built through the API from well formed layers that end with a softmax layer, all inputs of the right shape, all pairs of outputs, both modes, both build profiles", "why_tests_cant": "quantifies over all networks and inputs; a test compares the ranking of a few outputs", "anchors": ["src/network.rs:Network::infer", "src/network.rs:Network::get_intermediate_state", "src/layer/softmax.rs:SoftmaxLayer::forward"]}
{"id": "C103", "title": "Max pooling can be exchanged with relu and with order preserving functions", "statement": "Applying relu_self_and_store_mask to an image and pooling the result with max_pool gives the same tensor, bit for bit, as pooling the image and applying relu_self_and_store_mask to the result, for all f32 entries including NaN and infinities. More generally a function that keeps all comparisons and negative infinity can be applied to the entries before or after max_pool. A mask of one entry with stride 1 copies the image, except that NaN becomes negative infinity.", "quantifier": "all images, masks that are not empty and strides that tile the image, all f32 entries, both build profiles", "why_tests_cant": "quantifies over all images, masks and f32 values; the order of the two steps and the treatment of NaN cannot be enumerated", "anchors": ["src/tensor.rs:Tensor::max_pool", "src/tensor.rs:Tensor::relu_self_and_store_mask"]}
{"id": "C104", "title": "Networks without biases scale with their input", "statement": "In exact arithmetic, if all biases of the fully connected and convolutional layers of a network are zero and its other layers are max-pool layers with masks that are not empty, then multiplying every entry of the input by a number c that is not negative multiplies every entry of the output, and of every intermediate state, by c. If the first layer is a max-pool layer the entries of the input must not be negative.", "quantifier": "all networks built through the API from such layers, all inputs of the right shape, all c that are not negative, all modes, both build profiles", "why_tests_cant": "quantifies over all networks, inputs and real factors", "anchors": ["src/network.rs:Network::infer", "src/layer/fully_connected.rs:FullyConnectedLayer::forward", "src/layer/convolutional.rs:ConvolutionalLayer::forward", "src/layer/max_pool.rs:MaxPoolLayer::forward"]}
{"id": "C105", "title": "Scaling the input by a power of two scales f32 outputs exactly", "statement": "In a network whose fully connected and convolutional layers have only zero biases and whose other layers are max-pool layers with masks that are not empty, multiplying every entry of the input by 2^k multiplies every entry of the output, and of every intermediate state, by exactly 2^k, as long as no product underflows and no sum would overflow. Rounding makes no difference. Where a product underflows this is false.", "quantifier": "all networks built through the API from such layers, all finite inputs of the right shape, all natural k, all modes, both build profiles", "why_tests_cant": "quantifies over all networks, inputs and exponents; the claim is bit-exact and includes all roundings", "anchors": ["src/network.rs:Network::infer", "src/layer/fully_connected.rs:FullyConnectedLayer::forward", "src/layer/convolutional.rs:ConvolutionalLayer::forward", "src/layer/max_pool.rs:MaxPoolLayer::forward", "src/tensor.rs:Tensor::matrix_multiply_add_relu", "src/tensor/operations/convolution.rs:convolution_bias_relu"]}
{"id": "C106", "title": "Identity layers can be left out", "statement": "Let one network have the layers of another one except for an identity layer: a fully connected layer with the identity matrix and zero biases, a convolutional layer with stride 1 and one 1x1 kernel per channel that copies its channel, or a max-pool layer with a 1x1 mask and stride 1. Then infer gives the same output bit for bit, and the same intermediate states before and after the layer, whenever the entries that reach the layer are finite with a clear sign bit (for max pooling: not NaN). For negative entries this is false, as fully connected and convolutional layers end with a ReLU.", "quantifier": "all networks built through the API, all places of the identity layer, all inputs of the right shape whose run meets the condition at that place, all modes, both build profiles", "why_tests_cant": "quantifies over all networks, sizes, places and inputs; the claim is bit-exact and includes all roundings", "anchors": ["src/network.rs:Network::infer", "src/layer/fully_connected.rs:FullyConnectedLayer::forward", "src/layer/convolutional.rs:ConvolutionalLayer::forward", "src/layer/max_pool.rs:MaxPoolLayer::forward", "src/tensor.rs:Tensor::matrix_multiply_add_relu", "src/tensor/operations/convolution.rs:convolution_bias_relu"]}
{"id": "C107", "title": "Rescaling the parameters of neighbouring layers changes nothing", "statement": "In exact arithmetic, give every state between the layers of a network a positive factor, and multiply the weights or kernels of every layer by the factor after it divided by the factor before it, and its biases by the factor after it (factors next to a softmax layer are 1, and equal on both sides of a max-pool layer). Then the rescaled network, given the input times the first factor, has all states, and the output, multiplied by their factors; if the first and last factors are 1 it computes the same function. After infer and backward, the gradients collected by fully connected layers are scaled the opposite way: weight gradients by the factor before divided by the factor after, bias gradients by one over the factor after.", "quantifier": "all pairs of networks built through the API with so related parameters, all positive factors, all inputs and gradients of the right shapes (not negative if the first layer is a max-pool layer), both build profiles; training without convolutional layers and with softmax on columns; a max-pool layer with outputs has a non-empty input", "why_tests_cant": "quantifies over all networks, real factors, inputs and gradients; a test checks one pair of networks up to rounding", "anchors": ["src/network.rs:Network::infer", "src/network.rs:Network::backward", "src/layer/fully_connected.rs:FullyConnectedLayer::forward", "src/layer/fully_connected.rs:FullyConnectedLayer::backward", "src/layer/convolutional.rs:ConvolutionalLayer::forward", "src/layer/max_pool.rs:MaxPoolLayer::forward", "src/layer/max_pool.rs:MaxPoolLayer::backward"]}
{"id": "C108", "title": "Values and collected gradients balance in every layer", "statement": "In exact arithmetic, take a network of fully connected and max-pool layers (windows not empty) in training mode and call infer and then backward. For every fully connected layer, the sum of its weights times what was added to their gradients, plus the sum of biases times what was added to their gradients in this and all later layers, equals the sum of the outputs times the gradient given to backward. Without biases, the sum of weights times added gradients is thus the same number for all layers.", "quantifier": "all networks of fully connected and max-pool layers in training mode, whatever they collected before, all inputs (not negative if the first layer is a max-pool layer), all gradients, both build profiles", "why_tests_cant": "quantifies over all networks, real inputs and gradients; a test checks one network up to rounding", "anchors": ["src/network.rs:Network::infer", "src/network.rs:Network::backward", "src/layer/fully_connected.rs:FullyConnectedLayer::backward", "src/layer/max_pool.rs:MaxPoolLayer::backward"]}
{"id": "C109", "title": "Rescaling layers by powers of two does not change f32 predictions", "statement": "Change the parameters of a network by powers of two: choose an integer e_i for every state between the layers, multiply the weights or kernels of layer i by 2^(e_{i+1} - e_i) and its biases by 2^e_{i+1}. If in the run of infer no product underflows and no sum overflows, before or after the change, all states of the changed network are exactly 2^e_i times the original ones, and where e_i = 0, in particular for the output if the last e_i is 0, they agree bit for bit. So multiplying the parameters of one fully connected layer by 2^z and the weights of the next by 2^-z leaves the predictions as they are. This is false for the factor 3, and where a product underflows.", "quantifier": "all networks built through the API (softmax layers and layers on special values must be left unchanged and have e_i = e_{i+1} = 0; a changed max-pool layer has a non-empty window), all inputs, all integers e_i, IEEE binary32, either choice of f32::max between zeros, both modes and build profiles", "why_tests_cant": "quantifies over all networks, inputs and exponents and claims bit equality; tests compare a few values with a tolerance", "anchors": ["src/network.rs:Network::infer", "src/layer/fully_connected.rs:FullyConnectedLayer::forward", "src/layer/convolutional.rs:ConvolutionalLayer::forward", "src/layer/max_pool.rs:MaxPoolLayer::forward"]}
{"id": "C110", "title": "Raising parameters never lowers a prediction of non-negative layers", "statement": "In f32 arithmetic, compare two networks of fully connected, convolution and max-pool layers with the same shapes, where no weight, kernel entry or bias of the second is smaller. If the second has no negative weights, the inputs are not negative and all values stay in range, then infer never gives a smaller output in any entry, whatever the rounding does. If only one layer is changed, its weights may have any sign and the layers before it may be any layers: it is enough that the values entering that layer are not negative, or that only biases were raised, and that the layers behind it have no negative weights. Both sign conditions are needed: raising a weight with a negative input, or a bias in front of a negative weight, can lower the output.", "quantifier": "all pairs of such networks, all finite inputs whose values stay in range, all rounding outcomes of f32, both build profiles", "why_tests_cant": "quantifies over all parameters, inputs and roundings; a test compares a few runs", "anchors": ["src/network.rs:Network::infer", "src/layer/fully_connected.rs:FullyConnectedLayer::forward", "src/layer/convolutional.rs:ConvolutionalLayer::forward", "src/layer/max_pool.rs:MaxPoolLayer::forward", "src/tensor/operations/convolution.rs:convolution_bias_relu"]}
{"id": "C111", "title": "A mode switch makes a network forget its history", "statement": "After switch_to_training (or switch_to_inference) and an infer of a well formed input, the whole network - layers with their masks and gradients, intermediate states, intermediate gradients, shapes and mode - is determined by the layers' parameters and that input: two networks with the same parameters are then equal, whatever infer, backward and mode switches either went through before, with any arguments and with panics that the caller caught. A layer's forward gives the same result and leaves the same layer whatever the output tensor held before.", "quantifier": "all pairs of networks with at least one layer built with the API whose layers have the same parameters, all histories, all inputs of the input shape, both build profiles; for layers all well formed layers and tensors", "why_tests_cant": "quantifies over all pairs of histories, panics included; a test compares the outcome of one history with a fresh network", "anchors": ["src/network.rs:Network::switch_to_training", "src/network.rs:Network::switch_to_inference", "src/network.rs:Network::infer", "src/layer/fully_connected.rs:FullyConnectedLayer::forward", "src/layer/convolutional.rs:ConvolutionalLayer::forward", "src/layer/max_pool.rs:MaxPoolLayer::forward", "src/layer/softmax.rs:SoftmaxLayer::forward"]}
{"id": "C112", "title": "Units that contribute nothing can be removed", "statement": "In f32, remove units from fully connected layers of a network (and the corresponding weights of the next layer). If, in a run of the large network, every removed unit is finite and meets only weights of zero (of either sign) in the next layer, or is zero and meets only finite weights there, the small network gives the same output on that input, bit for bit, and the same states up to the removed entries. The condition that removed values are finite is needed: an infinite value times a zero weight changes the output.", "quantifier": "all pairs of networks built with the API that differ by removed units of any number of fully connected layers, all inputs on which the removed units are idle, both build profiles, any modes; kept parameters and values may be anything, also infinite or NaN", "why_tests_cant": "quantifies over all networks, all sets of removed units and all inputs, bit for bit including signed zeros; a test prunes one network", "anchors": ["src/network.rs:Network::infer", "src/layer/fully_connected.rs:FullyConnectedLayer::forward", "src/tensor.rs:Tensor::matrix_multiply_add_relu", "src/tensor.rs:Tensor::matrix_multiply"]}
{"id": "C113", "title": "A zero gradient records nothing", "statement": "In f32, after any infer call backward with a gradient whose entries are all zero (of either sign). Every recorded weight and bias gradient is afterwards the same number as before or NaN, and the gradient passed back to the input consists of zeros and NaNs. If the weights and all states of that infer are finite, no NaN appears: every recorded gradient that was not NaN is the same number as before and the gradient passed back is zero. The exception is real: after an infinite input a zero gradient turns a weight gradient from zero into NaN.", "quantifier": "all networks in training mode made of fully connected, max-pool and column softmax layers, with any history, all inputs including infinities and NaN, all gradients of zeros, both build profiles", "why_tests_cant": "quantifies over all networks, histories, inputs and recorded gradients in f32; a test masks one example", "anchors": ["src/network.rs:Network::backward", "src/layer/fully_connected.rs:FullyConnectedLayer::backward", "src/layer/max_pool.rs:MaxPoolLayer::backward", "src/layer/softmax.rs:SoftmaxLayer::backward"]}
{"id": "C114", "title": "Units with equal parameters stay equal", "statement": "Take two units of a fully connected layer that is followed by another fully connected layer. If the units have the same weights and bias and the next layer weights them in the same way, they have the same value in every infer, and training on any list of examples records the same gradients for their weights, their biases and the weights that lead from them, bit for bit in f32, provided this was so before, as it is after switch_to_training. Layers made with fill_weights_with_value and fill_bias_with_value consist of such units only, so gradient descent cannot tell their units apart.", "quantifier": "all networks built with the API, for training those of fully connected, max-pool and column softmax layers, all pairs of units, all inputs, all lists of examples, all arithmetics including f32, both build profiles", "why_tests_cant": "quantifies over all networks, units, inputs and training histories; a test trains one network for some steps", "anchors": ["src/network.rs:Network::infer", "src/network.rs:Network::backward", "src/layer/fully_connected.rs:FullyConnectedLayer::backward", "src/layer/fully_connected.rs:FullyConnectedLayer::fill_weights_with_value", "src/layer/fully_connected.rs:FullyConnectedLayer::fill_bias_with_value"]}
{"id": "C115", "title": "Cross entropy passes through softmax as prediction minus target", "statement": "For a softmax layer on a column, in exact arithmetic: the gradient that backward passes on, given the output of forward, sums to zero; adding a constant to the incoming gradient does not change it; and for the gradient of the cross entropy, which is -t_i / p_i for the target t and the output p, it is p_i - t_i whenever the target sums to one.", "quantifier": "all softmax layers on columns in training mode, all inputs, incoming gradients and targets, both build profiles, exact arithmetic", "why_tests_cant": "quantifies over all column lengths, inputs and targets; a test checks one gradient", "anchors": ["src/layer/softmax.rs:SoftmaxLayer::backward", "src/layer/softmax.rs:SoftmaxLayer::forward", "src/tensor.rs:Tensor::softmax"]}
{"id": "C116", "title": "Without negative weights behind the first layer predictions are convex", "statement": "Take a network without softmax layers in which no layer but the first has negative weights. On the way from one input to another, no output of the exact network is above the straight line between its values at the two ends. In f32, if all values stay in range, infer computes at most twice the rounding error bound more than the line between the two outputs that it computes for the ends.", "quantifier": "all networks built with the API whose layers behind the first have no negative weights, all pairs of inputs and all points between them, both build profiles", "why_tests_cant": "quantifies over all networks of the kind, all pairs of inputs and all points between them; a test checks a few points", "anchors": ["src/network.rs:Network::infer", "src/layer/fully_connected.rs:FullyConnectedLayer::forward", "src/layer/convolutional.rs:ConvolutionalLayer::forward", "src/layer/max_pool.rs:MaxPoolLayer::forward"]}
{"id": "C117", "title": "Mirroring or transposing image and kernels mirrors or transposes the prediction", "statement": "Take a network of convolution, max-pool and softmax layers, and a second one whose kernels and shapes are those of the first, mirrored in the first coordinate or with the first two coordinates exchanged. For an image that is turned in the same way, the second network computes the output of the first, turned in the same way: exactly in exact arithmetic, and in f32 up to twice the rounding error bound if all values stay in range.", "quantifier": "all networks of convolution, max-pool and softmax layers built with the API, all images, strides and window sizes, mirroring and transposition, both build profiles", "why_tests_cant": "quantifies over all architectures, kernels and images; windows that do not tile an image exactly would break it for some sizes only", "anchors": ["src/network.rs:Network::infer", "src/layer/convolutional.rs:ConvolutionalLayer::forward", "src/layer/max_pool.rs:MaxPoolLayer::forward", "src/tensor/operations/convolution.rs:convolution_bias_relu"]}
{"id": "C118", "title": "Two networks can run side by side in one", "statement": "Put two networks of fully connected layers with the same number of layers side by side into one network: each of its layers has the units of both, the weights from the units of one network to those of the other are zero, and the first layer either works on the two inputs one after the other or on a common input. If all values that enter a layer are finite, its output in f32 is the output of the first network followed by that of the second, bit for bit.", "quantifier": "all pairs of fully connected networks of equal depth, all inputs, zeros of both signs, both build profiles", "why_tests_cant": "quantifies over all pairs of networks and inputs, in f32, where adding zero products could disturb sums", "anchors": ["src/network.rs:Network::infer", "src/layer/fully_connected.rs:FullyConnectedLayer::forward", "src/tensor.rs:Tensor::matrix_multiply_add_relu"]}
{"id": "C119", "title": "Copies of a hidden unit can be merged, and a unit can be split into copies", "statement": "Let two networks agree except that the second has, for some units of a fully connected layer, several copies with the same weights and bias (or none, for units without outgoing weight), and the next fully connected layer weights the copies so that their weights sum up to that of the unit. Then the two networks compute the same function in exact arithmetic, and their f32 predictions differ by at most the sum of the two rounding error bounds of C74.", "quantifier": "all networks with two consecutive fully connected layers, all assignments of copies to units, all layers before and after, all inputs in range, both build profiles", "why_tests_cant": "quantifies over all pairs of networks related by copying and over all inputs", "anchors": ["src/network.rs:Network::infer", "src/layer/fully_connected.rs:FullyConnectedLayer::forward"]}
{"id": "C120", "title": "Between inputs that take the same branches predictions are linear", "statement": "If two inputs activate the same units in every fully connected and convolutional layer and have their maxima in the same places of every max pooling window, then the network, if it has no softmax layer, is affine between them: in exact arithmetic its output for a point between the inputs is the corresponding point between the two outputs, and the f32 output differs from that by at most twice the rounding error bound of C74.", "quantifier": "all networks without softmax, all pairs of inputs that take the same branches, all points between them, both build profiles", "why_tests_cant": "quantifies over all networks, input pairs and intermediate points", "anchors": ["src/network.rs:Network::infer", "src/layer/fully_connected.rs:FullyConnectedLayer::forward", "src/layer/convolutional.rs:ConvolutionalLayer::forward", "src/layer/max_pool.rs:MaxPoolLayer::forward"]}
{"id": "C121", "title": "Influence flows along non-zero weights only", "statement": "If no chain of non-zero weights, kernel entries, pooling windows and softmax layers leads from an input place to an output place, that input has no influence on that output: two inputs that differ only in such places give the same entry of the output, and of every intermediate state, bit for bit, as long as the entries that meet zero weights are finite in both runs. In particular input entries that the first layer multiplies by zero only do not change the prediction. An infinite entry does change it.", "quantifier": "all networks, all choices of places in the states that are closed under such chains, all pairs of inputs, zeros of both signs, any modes, both build profiles", "why_tests_cant": "quantifies over all networks, all sets of places and all pairs of inputs, in f32, including NaN and infinite entries elsewhere", "anchors": ["src/network.rs:Network::infer", "src/tensor.rs:Tensor::matrix_multiply_add_relu", "src/tensor/operations/convolution.rs:convolution_bias_relu", "src/tensor.rs:Tensor::max_pool", "src/layer/softmax.rs:SoftmaxLayer::forward"]}
{"id": "C122", "title": "The gradient that softmax passes on is accurate in f32", "statement": "In training mode, on a column of n < 2^22 entries with finite outputs y of at most 1 in absolute value and a finite gradient g, SoftmaxLayer::backward writes finite numbers within (n+11) 2^-23 A + (n+5) 2^-149 of y_i (g_i - sum y_o g_o), where A = sum |y_o g_o| is at most 2^120. For targets t that sum to one and a gradient with y_o g_o near -t_o the result is near y_i - t_i with an explicit bound. In particular forward on entries between -87 and 71 followed by backward with the gradient -1/p_c of the cross entropy of class c, computed in f32, writes the partial derivatives of the exact loss -log softmax(x)_c up to (4n+54) 2^-23, as long as p_c is not denormal.", "quantifier": "all softmax layers on columns of every size below 2^22 in training mode, all such outputs, gradients, inputs, targets and classes; any exp with relative error 2^-20 where forward is involved; both build profiles", "why_tests_cant": "quantifies over all sizes, inputs, gradients and platform exponentials, and compares f32 with real derivatives", "anchors": ["src/layer/softmax.rs:SoftmaxLayer::backward", "src/layer/softmax.rs:SoftmaxLayer::forward", "src/tensor.rs:Tensor::matrix_multiply_transpose_first", "src/tensor.rs:Tensor::softmax"]}
{"id": "C123", "title": "A training step of a classifier in f32 records the derivatives of the cross entropy", "statement": "Take a network of fully connected layers followed by softmax, in training mode with finite parameters and cleared gradients. infer an input near exact numbers, read the output p and call backward with the gradient of the cross entropy of class c: -1/p_c, computed in f32, at c and zero elsewhere. If magnitudes stay in range, p_c is not denormal and every pre-activation is, in exact arithmetic, further from zero than its error bound, then backward returns Ok, and every recorded weight gradient, every recorded bias gradient and the gradient left at the input is finite and within an explicit bound of the partial derivative of the exact loss -log softmax(net(x))_c.", "quantifier": "all such networks with fewer than 2^22 units per layer, all inputs within the bounds, all classes; any exp with relative error 2^-20; both build profiles", "why_tests_cant": "quantifies over all networks, inputs and platform exponentials and compares f32 results with derivatives of a real function", "anchors": ["src/network.rs:Network::infer", "src/network.rs:Network::backward", "src/layer/softmax.rs:SoftmaxLayer::backward", "src/layer/fully_connected.rs:FullyConnectedLayer::backward"]}
{"id": "C124", "title": "A convolutional layer can be written out as one fully connected layer", "statement": "Take a convolutional layer and the fully connected layer whose inputs are the entries of the image and whose units are the entries of the output, both in storage order, with the weights of the kernel for the entries under the window of an output and zeros of any sign elsewhere. On every image of finite f32 numbers, forward of both leaves the same data, bit for bit, in either mode. A network in which every convolutional layer is replaced in this way computes, from the same data as a column, the same data in every layer, if the values that enter convolutional layers are finite. If outputs times inputs is below 2^32, fill_from_state accepts such weights.", "quantifier": "all convolutional layers, strides, kernels and images of finite numbers; all networks of convolutional, fully connected and softmax layers; both build profiles", "why_tests_cant": "bitwise equality of two different summation loops for all kernels, images and layer geometries", "anchors": ["src/layer/convolutional.rs:ConvolutionalLayer::forward", "src/layer/fully_connected.rs:FullyConnectedLayer::forward", "src/layer/fully_connected.rs:FullyConnectedLayer::fill_from_state", "src/tensor/operations/convolution.rs:convolution_bias_relu", "src/network.rs:Network::infer"]}
{"id": "C125", "title": "Multiplying the loss by a power of two multiplies all recorded gradients by it", "statement": "Train two networks with the same parameters on the same inputs in f32, one with the gradients g of a loss and one with 2^k g, with any number of infer and backward calls. If no product that backward forms in the first network underflows, then every weight and bias gradient recorded in the second is exactly 2^k times the one recorded in the first, wherever both are finite, if that was so at the beginning, for example because both were zero. So loss scaling by powers of two does not change the training step, and an overflow it causes shows in the recorded gradients. Where a product underflows it is false.", "quantifier": "all networks in training mode made of fully connected, max-pool and column softmax layers, with any history, all lists of inputs and gradients for which no product of the unscaled run underflows, including infinities and NaN, all k, both build profiles", "why_tests_cant": "an exact relation between two runs for all parameters, inputs, gradients and factors, over the rounding of every operation", "anchors": ["src/network.rs:Network::backward", "src/network.rs:Network::infer", "src/layer/fully_connected.rs:FullyConnectedLayer::backward", "src/layer/max_pool.rs:MaxPoolLayer::backward", "src/layer/softmax.rs:SoftmaxLayer::backward"]}
{"id": "C126", "title": "Small changes of the parameters move the predictions by a bounded amount", "statement": "Take two networks with the same architecture whose parameters differ, for instance because the parameters of the second were rounded to a shorter format. A bound on the outputs' difference passes from layer to layer: with absolute row sums at most A and biases at most B in the first network, differences of at most δ in these sums and η in the biases, values of at most M that differ by d become values of at most A M + B that differ by (A + δ) d + δ M + η; max pooling keeps the bound and softmax turns it into exp(2d) - 1. The f32 outputs of infer are finite and differ by at most this plus the rounding error bounds of the two networks. So if two outputs of the first network are further apart than twice that, the second network ranks them in the same order, also for inputs that are changed by at most d.", "quantifier": "all pairs of networks of fully connected, convolutional, max-pool and softmax layers with the same architecture that stay in range, all inputs within the bounds, both build profiles, either mode", "why_tests_cant": "a bound for all networks, all changes of their parameters and all inputs, including the rounding errors of both runs", "anchors": ["src/network.rs:Network::infer", "src/layer/fully_connected.rs:FullyConnectedLayer::forward", "src/layer/convolutional.rs:ConvolutionalLayer::forward", "src/layer/max_pool.rs:MaxPoolLayer::forward", "src/layer/softmax.rs:SoftmaxLayer::forward"]}
{"id": "C127", "title": "The gradients of a batch are accurate in f32", "statement": "Let the recorded gradients of a network of fully connected, max-pool and softmax layers be cleared, and let the client call infer and backward for N < 2^22 examples in turn. If training on each example e alone would leave, for some weight or bias, a finite gradient within ε_e of a number D_e, then the gradient the batch leaves is finite provided Σ(|D| + ε) is at most 2^126, and whenever it is finite it is within Σε + N/2^23 Σ(|D| + ε) of ΣD. In particular, for a classifier of fully connected layers and softmax that is trained with the cross entropy, every finite gradient recorded for the batch is within such a bound of the partial derivative of the total cross entropy of the exact network over the batch.", "quantifier": "all networks of these layers in training mode, all lists of fewer than 2^22 fitting examples, all parameters, both build profiles", "why_tests_cant": "an error bound for batches of every length, over all parameters and examples, against derivatives of a real function", "anchors": ["src/network.rs:Network::infer", "src/network.rs:Network::backward", "src/layer/fully_connected.rs:FullyConnectedLayer::backward", "src/layer/softmax.rs:SoftmaxLayer::backward"]}
{"id": "C128", "title": "A small step against the gradients recorded in f32 lowers the exact loss", "statement": "Train a classifier of fully connected layers and softmax on a batch with the cross entropy, as in C127, and read the recorded gradients v. Let ε be the error bounds of C127 for the single weights and biases. If the sum of v² over all weights and biases is larger than the sum of ε|v|, then there is a step length τ > 0 such that subtracting t v from the parameters, for any t between 0 and τ, makes the total cross entropy of the exact network over the batch smaller.", "quantifier": "all classifiers of fully connected layers and softmax in training mode that stay in range, all batches of fewer than 2^22 examples, all finite parameters, both build profiles", "why_tests_cant": "that a direction computed with rounding errors is a descent direction of a real function is a statement about limits, for all parameters and batches", "anchors": ["src/network.rs:Network::infer", "src/network.rs:Network::backward", "src/layer/fully_connected.rs:FullyConnectedLayer::backward", "src/layer/softmax.rs:SoftmaxLayer::backward"]}
{"id": "C129", "title": "Work can be resumed from a saved file", "statement": "Save a network of well formed layers with save_to_file and go on using it: infer, backward and mode switches with any arguments, including panics that the caller catches. Load the file into a new network, in any mode and in either build. After switching both networks to the same mode and calling infer with the same input, the loaded network and the one that was used on are equal in every respect - layers with masks and gradients, states, shapes and mode - so all later calls agree too. Saving the loaded network writes the same file again, if the hash maps iterate in the same order.", "quantifier": "all networks built through the API whose convolutional layers have kernels, all histories after saving, all map orders, files shorter than 2^64 bytes, all inputs, both build profiles, either mode", "why_tests_cant": "a statement about all networks, all histories with errors and panics, and equality of the whole state afterwards", "anchors": ["src/network.rs:Network::save_to_file", "src/network.rs:Network::load_from_file", "src/network.rs:Network::switch_to_training", "src/network.rs:Network::switch_to_inference", "src/network.rs:Network::infer"]}
{"id": "C130", "title": "The recorded gradients agree with differences of predictions", "statement": "The usual test for backpropagation succeeds: run infer and backward, change one weight or bias with set_item, run infer again and compare. In exact arithmetic, as long as the same units stay active, the change of <g, prediction> is exactly the change of the parameter times its gradient, and for a changed input the sum over the inputs of change times gradient. In f32 both sides differ by at most (e1 + e2) times the sum of the |g_k| plus |change| times the error bound of the gradient, where e1 and e2 are the error bounds of the two predictions.", "quantifier": "all networks of fully connected layers in training mode with cleared gradients, all inputs and gradients within the bounds, every weight, bias and input, all new values that leave the same units active, both build profiles", "why_tests_cant": "such a test picks one network, one input, one parameter and one tolerance; the theorem covers all of them and gives the tolerance", "anchors": ["src/network.rs:Network::infer", "src/network.rs:Network::backward", "src/layer/fully_connected.rs:FullyConnectedLayer::backward", "src/tensor.rs:Tensor::set_item"]}
{"id": "C131", "title": "Parameters can be cut to a shorter format at a bounded cost", "statement": "If the lowest k bits (k at most 23) of every parameter of a network are set to zero (k = 16 is the format bfloat16), the f32 predictions of infer stay finite and move by at most d' + 2e'. Here e' is the rounding error bound of C74 for the given network, which the shortened network inherits, and d' comes from a rule that passes from layer to layer: with absolute row sums at most A, biases at most B and n terms, values of at most M that differ by d become values of at most A M + B that differ by (A + r) d + r M + s, where r = 2^(k-23) A + n 2^(k-149) and s = 2^(k-23) B + 2^(k-149); max pooling keeps the bound and softmax turns it into exp(2d) - 1. Two outputs that are further apart than twice the total keep their order.", "quantifier": "all networks of fully connected, convolutional, max-pool and softmax layers in range, all k up to 23, all inputs within the bounds, both build profiles, either mode", "why_tests_cant": "a test compares the two networks for a few inputs; the bound holds for all parameters and all inputs in range", "anchors": ["src/network.rs:Network::infer", "src/layer/fully_connected.rs:FullyConnectedLayer::forward", "src/layer/convolutional.rs:ConvolutionalLayer::forward"]}
{"id": "C132", "title": "A panic inside a tensor operation leaves a usable tensor", "statement": "If a public tensor operation panics half way and the panic is caught, the tensor that it was writing still has its shape, its strides and the right number of elements: it is well formed, and all further operations work on it as on any other tensor. So after any sequence of operations on a tensor made by Tensor::new, some returning Ok, some Err and some panicking, the tensor is well formed and has the shape it was created with.", "quantifier": "all public operations that write a tensor, all arguments (also tensors of wrong shapes or from damaged files), all sequences of calls, any arithmetic, both build profiles", "why_tests_cant": "the state between two writes of an operation can be seen only in the calls that happen to panic there; the claim is about every point at which a call can stop", "anchors": ["src/tensor.rs:Tensor::set_item", "src/tensor.rs:Tensor::matrix_multiply", "src/tensor.rs:Tensor::transpose_ij", "src/tensor.rs:Tensor::max_pool_track_origin", "src/tensor.rs:Tensor::softmax", "src/tensor/operations/convolution.rs:convolution_backprop_outgoing_gradient"]}
{"id": "C133", "title": "Missing data are noticed, and what was computed before is right", "statement": "A tensor read from a file can have fewer elements than its shape says. Give such tensors, in place of complete ones with the same shape and strides, as arguments to transpose_ij, the matrix products, matrix_multiply_add_relu, a convolution forward or backward, max_pool or max_pool_track_origin. If the call with the complete tensors returns, then the call with the short ones either does and leaves exactly the same, or panics, and then the elements that it has written are those of the complete call, up to some position, and all behind it are as before. A wrong value is never written. (add, softmax and the other element by element operations do not notice; C133_silent.)", "quantifier": "all tensors of any shape with any elements missing at the end, all strides, masks and channels, any arithmetic, both build profiles", "why_tests_cant": "every position at which the data can end, for every shape of every operation", "anchors": ["src/tensor.rs:Tensor::transpose_ij", "src/tensor.rs:Tensor::matrix_multiply", "src/tensor.rs:Tensor::matrix_multiply_transpose_first", "src/tensor.rs:Tensor::matrix_multiply_add_relu", "src/tensor.rs:Tensor::max_pool_track_origin", "src/tensor/operations/convolution.rs:convolution_bias", "src/tensor/operations/convolution.rs:convolution_backprop_kernel"]}
{"id": "C134", "title": "A network with incomplete parameters never predicts", "statement": "Take a network built with add_layer and let elements at the end of any kernels, weights or biases, or whole biases of convolutional layers, be missing (as the fields of a file can be). Then infer with an input of the right shape panics, in whichever layer it is and whatever the values are. For any networks, built or not: when infer, backward or a change of mode returns in spite of missing data, it returns the same and leaves the same states, gradients and masks as with the complete parameters; and when a file with incomplete parameters can be loaded, the file with the complete ones loads to the same network but for the missing data. Exception: the bias of a fully connected layer in training mode, of which a missing part is silently taken as absent (C134_bias).", "quantifier": "all networks of the four kinds of layers with any shapes, any number of elements missing in any number of parameters, all inputs of the right shape, both modes, any arithmetic, both build profiles", "why_tests_cant": "every position at which the data of every parameter can end, in every architecture; a test shows one panic", "anchors": ["src/network.rs:Network::infer", "src/network.rs:Network::backward", "src/network.rs:Network::load_from_file", "src/layer/fully_connected.rs:FullyConnectedLayer::forward", "src/layer/convolutional.rs:ConvolutionalLayer::forward"]}
{"id": "C135", "title": "Uniform random numbers are spread evenly between the bounds", "statement": "fill_with_uniform(min, max) with proper bounds (C75) makes of every entry a number that depends only on the 32-bit random word drawn for this entry, in the same way everywhere. With m the first 23 bits of the word it is min + m/(2^23-1) (max-min), up to an error of (|min|+|max|)/2^21 + 2^-146; a larger m never gives a smaller number. So if all words are equally likely, the probability of a number of at most t is (t-min)/(max-min), up to that error divided by max-min plus 2^-23, for every t in the interval, and the mean is (min+max)/2 up to that error.", "quantifier": "all bit patterns of proper bounds, all random words, all well formed tensors and positions, all thresholds, both build profiles", "why_tests_cant": "a test draws some samples and can at most reject gross bias; the distribution is a statement about all 2^32 words for every pair of bounds", "anchors": ["src/tensor.rs:Tensor::fill_with_uniform"]}
{"id": "C136", "title": "One successful prediction shows that a network always predicts", "statement": "Take any two networks of the same form: the same layers with tensors of the same shapes, strides and amounts of data, in the same mode; the numbers in them, and even the arithmetic, may differ. They need not be well formed; for example they may come from a damaged file. Given inputs of the same form, infer panics in the same way in both, or returns the same Ok or Err in both and leaves networks of the same form. So when infer returns Ok once, it returns Ok for every later sequence of inputs of the same form, and when it panics once it would panic for all of them: numbers, NaN included, never decide. For networks without max pooling the same holds of backward and of whole training steps. With max pooling it does not: for an input with unusual strides backward returns Ok or Err depending on where the maximum lies (C136_pool).", "quantifier": "all networks of the four kinds of layers, well formed or not, all values of parameters, inputs and loss gradients, all sequences of calls, both modes, any arithmetic, both build profiles", "why_tests_cant": "this is what makes one smoke test meaningful: it says that a single run stands for all values of the same shapes, which runs themselves cannot show", "anchors": ["src/network.rs:Network::infer", "src/network.rs:Network::backward", "src/tensor.rs:Tensor::max_pool_track_origin", "src/tensor/operations/convolution.rs:convolution_bias_relu", "src/layer/fully_connected.rs:FullyConnectedLayer::forward"]}
{"id": "C137", "title": "A tensor file is never taken for a network", "statement": "Save any tensor, of any shape and with any entries, to a file with Tensor::save_to_file, even if the write is cut off at any byte. Loading this file as a network returns an Err; it never panics, and the network it was to be loaded into is left exactly as it was. This holds although there are tensors whose bytes are the encoding of a serialised network: the only layer in it has no name, and is refused before anything is added.", "quantifier": "all well formed tensors with all entries, all networks to load into, all cut-offs of the write, both build profiles", "why_tests_cant": "the two formats carry no marker; whether one can be mistaken for the other depends on all shapes and all bit patterns of the entries", "anchors": ["src/tensor.rs:Tensor::save_to_file", "src/network.rs:SerializedNetwork::populate_network", "src/network.rs:Network::load_from_file"]}
{"id": "C138", "title": "A network file is never taken for a tensor", "statement": "A file that Network::save_to_file wrote should be refused by Tensor::from_file. This is false: the file of a network of two softmax layers is accepted (C138_negation). Proved instead: whatever network file is accepted, whole or cut off at any byte, gives a tensor that is inert: its shape has dj = 0, get_item returns 0 everywhere, set_item does nothing, and it breaks the link between shape and data (C138_inert_partial). The file of a network without layers is always refused (C138_empty_partial).", "quantifier": "all networks, all orders in which the hash map is written, all cut-offs of the write, all indices, both build profiles", "why_tests_cant": "acceptance depends on the names, shapes and hash order of a whole network; a few saved files cannot show what every accepted file looks like", "anchors": ["src/network.rs:Network::save_to_file", "src/tensor/helper.rs:TensorShape", "src/tensor.rs:Tensor::from_file"]}
{"id": "C139", "title": "A stride only leaves out windows", "statement": "Take a convolutional or max-pool layer and the same layer with stride 1. Entry (i,j,k) of the first output is entry (s*i,s*j,k) of the second, where s is the stride, bit for bit. Therefore in every network the layer can be replaced by the layer with stride 1 followed by a max-pool layer with a 1x1 mask and stride s: the output shape is the same, and so are the output of infer and all intermediate states before and after this place, bit for bit, for every input, NaN and infinities included.", "quantifier": "all well formed layers, all strides and kernel or mask shapes, all positions in all networks, all inputs and modes, both build profiles, IEEE floats and every arithmetic with the same order laws", "why_tests_cant": "it relates two different networks on all inputs and for all geometries; the special values are the ones where max pooling over one entry might change it", "anchors": ["src/tensor.rs:Tensor::convolution", "src/tensor.rs:Tensor::max_pool", "src/network.rs:Network::infer"]}
{"id": "C140", "title": "Recorded gradients stop growing with the number of examples", "statement": "Gradients are summed up in f32, one example after the other. Take a network of fully connected, max pool and softmax layers in training mode with cleared gradients. If every example alone would leave, for a weight or bias, a gradient of at most the magnitude of a float B, then any number of examples together leaves a finite gradient of at most 2^25 B (if this is in range). If every example alone leaves the gradient 1, then N examples leave exactly min(N, 2^24). This happens: a network of one layer trained N times on the same example records min(N, 2^24) for its weight and its bias (C140_witness). So a limit on the number of examples, as in C127, is needed, and dividing the sum by N does not give the mean for large N.", "quantifier": "all networks of these layers, all lists of fitting examples of any length, all weights and biases, all bounds B with 2^25 B < 2^128, both build profiles, IEEE floats with any exp", "why_tests_cant": "the effect needs more than 16 million training steps without clearing; and the bound is about every length of the list", "anchors": ["src/layer/fully_connected.rs:FullyConnectedLayer::backward", "src/network.rs:Network::backward", "src/tensor.rs:Tensor::add_to_self"]}
{"id": "C141", "title": "Normalising the input can be folded into the first layer", "statement": "Suppose the input of a network is prepared before every prediction by multiplying and shifting each entry (for example x/127.5 - 1 for grey values). If the first layer is fully connected, or is convolutional and the factors and shifts depend on the channel only, then there is a network in the same mode, of the same shapes and equal in all further layers, that does the preparation itself: its first weights are multiplied by the factors and its first biases get what the weights make of the shifts. In exact arithmetic this network gives, for every raw input, the same output and the same states after the first layer as the original network gives for the prepared input.", "quantifier": "all networks starting with such a layer, all factors and shifts (also zero or negative), all inputs of the network's shape, both modes, both build profiles, real arithmetic", "why_tests_cant": "a test compares two given networks on given inputs; existence of the second network for every network and equality on every input are outside its reach", "anchors": ["src/layer/fully_connected.rs:FullyConnectedLayer::forward", "src/layer/convolutional.rs:ConvolutionalLayer::forward", "src/network.rs:Network::infer", "src/network.rs:Network::add_layer"]}
{"id": "C142", "title": "What networks can fit", "statement": "Take any finite list of examples: inputs of shape (n,1,1) and targets of shape (m,1,1) that are not negative, equal inputs having equal targets. There is a network of two fully connected layers, made with add_layer in either mode, with at most one hidden unit per example, whose infer gives in exact arithmetic exactly the target of every example. With a softmax layer behind them, two fully connected layers fit in the same way all targets that are distributions without zeros. Targets below zero cannot be reached: a network that ends with a fully connected or convolutional layer never gives an output below zero, whatever parameters, input and mode, also in f32 (relu is part of these layers and cannot be switched off); and a network that ends with softmax never gives, in exact arithmetic, an output of exactly zero. And one layer is not enough: no network of one fully connected layer fits exclusive or.", "quantifier": "all finite lists of consistent examples of all sizes whose parameter tensors fit in u32; all built networks and all inputs for the limits; both modes, both build profiles", "why_tests_cant": "existence of fitting parameters for every data set, and impossibility for all parameters, are beyond examples", "anchors": ["src/layer/fully_connected.rs:FullyConnectedLayer::forward", "src/layer/convolutional.rs:ConvolutionalLayer::forward", "src/network.rs:Network::add_layer", "src/network.rs:Network::infer"]}
{"id": "C143", "title": "Gaussian fills follow their samples", "statement": "Let mean and std_dev be finite and the samples drawn from the generator be finite with |z| <= Z and |mean| + 2|std_dev|Z <= 2^126. Tensor::fill_with_gaussian then returns, leaves only finite entries, and the entry at (i,j,k) differs from mean + std_dev * z, z being the sample with the entry's own number in memory order, by at most eps = (|mean| + 3|std_dev|Z)/2^24 + 2^-149. A larger sample never gives a smaller entry if std_dev >= 0, and never a larger one if std_dev <= 0. For std_dev > 0 and every x the number of entries <= x lies between the numbers of samples up to (x - mean - eps)/std_dev and up to (x - mean + eps)/std_dev. The average entry differs from mean + std_dev * (average sample) by at most eps. With std_dev = 0 every entry equals mean exactly.", "quantifier": "all well-formed tensors, all generators with finite bounded samples, all finite means and deviations in range (negative deviations included, which the code accepts)", "why_tests_cant": "a test sees one random draw; the error bound and the distribution hold for every sequence of samples and every mean and deviation", "anchors": ["src/tensor.rs:Tensor::fill_with_gaussian"]}
{"id": "C144", "title": "Units that give zero learn nothing", "statement": "In f32, call infer in training mode and then backward. A unit of a fully connected layer whose output entry was zero records nothing: the gradients of its weights and its bias are afterwards the same numbers as before, or NaN; they do not become NaN if the gradient that reaches the layer and the layer's input are finite. If all units of a fully connected layer gave zero, then neither this layer nor any layer before it records anything, and the gradient passed back to the input is zero (or NaN; no NaN appears if the gradient that reaches the layer and the weights and states up to it are finite). So examples for which a layer is dead never train the layers before it. NaN does occur: an infinite gradient turns the bias gradient of a dead unit into NaN. Convolutional layers are different: one that gives zero everywhere still records kernel gradients and passes gradients back.", "quantifier": "all networks in training mode made of fully connected, max-pool and column softmax layers, with any history, all inputs and gradients including infinities and NaN, both build profiles", "why_tests_cant": "quantifies over all networks, positions of the dead layer, inputs, gradients and gradients recorded before, in f32", "anchors": ["src/layer/fully_connected.rs:FullyConnectedLayer::backward", "src/network.rs:Network::backward", "src/layer/convolutional.rs:ConvolutionalLayer::backward", "src/tensor.rs:Tensor::relu_self_and_store_mask"]}
{"id": "C145", "title": "What NaN in the input does", "statement": "In f32, NaN in an input is swallowed silently and poisons the gradients. (1) If the input of a fully connected layer contains NaN, all entries of its output are +0, in both run modes, whatever the weights (no unit passes NaN on). (2) Hence a network whose first layer is fully connected gives the same prediction, bit for bit, for all inputs that contain NaN; infer returns Ok. (3) An output of a convolutional layer is +0 if its window contains NaN, even where the kernel is zero. (4) Max pooling treats NaN as minus infinity. (5) The softmax of a tensor with NaN is NaN everywhere (if exp of NaN is NaN). (6) In training, one example with NaN in entry i of its input makes the gradients of all weights of the first fully connected layer that read entry i NaN, and they stay NaN whatever examples come before or after it in the batch.", "quantifier": "all networks, positions of the layer, inputs with NaN (any payload) anywhere, both run modes; (6) all batches, for networks of fully connected, max-pool and column softmax layers with any history; both build profiles", "why_tests_cant": "quantifies over all networks, weights (including NaN and infinities), positions and payloads of NaN and batches, in f32", "anchors": ["src/layer/fully_connected.rs:FullyConnectedLayer::forward", "src/layer/fully_connected.rs:FullyConnectedLayer::backward", "src/layer/convolutional.rs:ConvolutionalLayer::forward", "src/layer/max_pool.rs:MaxPoolLayer::forward", "src/layer/softmax.rs:SoftmaxLayer::forward", "src/tensor.rs:Tensor::relu_self_and_store_mask"]}
{"id": "C146", "title": "A NaN parameter switches its unit off and spreads towards the input", "statement": "In f32, a unit of a fully connected layer with NaN among its weights or as its bias gives +0 for every input, in both run modes, and infer returns Ok; so does every entry of a channel of a convolutional layer whose kernel contains NaN or whose bias is NaN. Such a unit is the same as one whose weights and bias are all zero: replacing the one by the other (in any number of units of a layer) changes no output of the network, bit for bit. In training it never learns: backward leaves the gradients of its weights and bias as they are, or makes them NaN, for every input and gradient. And NaN spreads: a NaN weight that reads entry i of its layer's input makes every backward record NaN for all weights and the bias of unit i of the fully connected layer before it and, if all layers up to there are fully connected, for all weights and biases of all layers still earlier.", "quantifier": "all networks, positions of the layer, units, other parameters, inputs and gradients (including infinities and NaN); training for networks of fully connected, max-pool and column softmax layers with any history; both build profiles", "why_tests_cant": "quantifies over all networks, depths, parameters, inputs and gradients, in f32", "anchors": ["src/layer/fully_connected.rs:FullyConnectedLayer::forward", "src/layer/fully_connected.rs:FullyConnectedLayer::backward", "src/layer/convolutional.rs:ConvolutionalLayer::forward", "src/network.rs:Network::infer", "src/network.rs:Network::backward", "src/tensor.rs:Tensor::relu_self_and_store_mask"]}
{"id": "C147", "title": "Damage to the structure of a saved file", "statement": "Take a file that save_to_file wrote. If the four bytes that hold the type of a layer are overwritten with any other number, load_from_file returns Err and does not panic; if the number is that of no type, or of a type with fewer fields, the network is unchanged, and otherwise at most the layers before the damaged one have been added. If the number of layers at the start is overwritten with a larger one, load_from_file returns Err and the network is unchanged. If it is overwritten with a smaller one m, loading into a new network returns Ok and gives the first m layers: nothing tells the caller that layers are missing.", "quantifier": "all networks built with the API (convolutional layers with kernels), positions of the layer, wrong numbers, map orders and networks to load into; both build profiles", "why_tests_cant": "quantifies over all networks, positions, wrong numbers and hash map orders", "anchors": ["src/network.rs:Network::load_from_file", "src/network.rs:Network::save_to_file", "src/layer.rs:SerializedLayer::add_to_network"]}
{"id": "C148", "title": "NaN in one loss gradient spoils the whole batch", "statement": "Take a network of fully connected layers, with or without a softmax layer at the end, and a batch of examples (infer and backward once per example). If the loss gradient of one example has NaN in entry k, then, in f32, all calls return Ok, and at the end of the batch the recorded gradients of every weight and every bias of every fully connected layer are NaN; only if the last layer is fully connected, the other units of this layer need not be affected, but all gradients of its unit k are. It does not matter what examples come before or after it, what the weights are and which units are active. Network has no method that clears gradients, but switch_to_training does: called again, it sets all of them to zero, and from the next infer on the network is the same, in all fields, as one that never saw the batch.", "quantifier": "all such networks in training mode with any history and any parameters, all batches of fitting examples, positions of the bad example and of NaN (any payload); the repair for all networks of all layers and all batches; both build profiles", "why_tests_cant": "quantifies over all networks, parameters, batches and positions; a test would have to feed NaN at all places", "anchors": ["src/network.rs:Network::backward", "src/network.rs:Network::switch_to_training", "src/layer/fully_connected.rs:FullyConnectedLayer::backward", "src/layer/softmax.rs:SoftmaxLayer::backward"]}
{"id": "C149", "title": "What an infinity in the input of a layer does", "statement": "In f32, if the input of a fully connected layer of a network (a client input or the output of the layer before, for example after an overflow) contains an infinity or NaN, every output of the layer is +0 or +inf, in both modes; the same holds for every output of a convolutional layer whose window contains one, in every channel. If entry i of the input of a fully connected layer with fewer than 2^22 inputs is +inf and all else that unit o reads is finite, with products that add up to at most 2^125 in absolute value, then output o is +inf if the weight (o,i) is greater than 0 and +0 otherwise; for -inf it is +inf if the weight is less than 0 and +0 otherwise. Hence a network that begins with a fully connected layer gives the same prediction, bit for bit, for all inputs with the same infinity in the same place and moderate entries elsewhere: the other entries do not matter. If exp(+inf) = +inf, softmax turns every +inf entry into NaN.", "quantifier": "all networks built through the API with any history, all parameters, all fitting inputs, all layers, units and entries, both modes and build profiles", "why_tests_cant": "quantifies over all networks, parameters and inputs; a test feeds infinities to a few networks", "anchors": ["src/network.rs:Network::infer", "src/layer/fully_connected.rs:FullyConnectedLayer::forward", "src/layer/convolutional.rs:ConvolutionalLayer::forward", "src/layer/softmax.rs:SoftmaxLayer::forward", "src/tensor.rs:Tensor::matrix_multiply", "src/tensor.rs:Tensor::matrix_multiply_add_relu", "src/tensor.rs:Tensor::relu_self_and_store_mask"]}
{"id": "C150", "title": "The parameters of the first layer can be seen from outside", "statement": "Take two networks that begin with fully connected layers of the same shape. In exact arithmetic infer leaves the same values behind this layer (get_intermediate_state(1), for one layer the prediction) for all inputs exactly if, unit by unit, either all weights and the bias are the same in both, or the unit is silent in both: all its weights are zero and its bias is not positive. The same holds for networks that begin with convolutional layers of the same input and output shapes and stride, channel by channel with kernels and biases. So no two different settings of a unit or channel that ever fires can be taken for each other, and nothing is lost or added on the way from parameters to results. In f32, if the bias of a unit is zero and its weights are finite, the weight of entry i is exactly the difference of the answers of the unit to the inputs with 1 and with -1 in entry i and zero elsewhere, and one of the two answers is zero.", "quantifier": "all pairs of networks built through the API that begin with fully connected layers of the same shape, or with convolutional layers of the same geometry, all units, channels and entries, all parameters; in f32 all finite weights; both modes and build profiles", "why_tests_cant": "one direction says that no two different sets of parameters agree on all inputs; a test compares a few", "anchors": ["src/network.rs:Network::infer", "src/network.rs:Network::get_intermediate_state", "src/layer/fully_connected.rs:FullyConnectedLayer::forward", "src/tensor.rs:Tensor::matrix_multiply_add_relu", "src/layer/convolutional.rs:ConvolutionalLayer::forward"]}
{"id": "C151", "title": "The gradients of one example show the example", "statement": "Take a network without convolutional layers in training mode, and let the recorded gradients of a fully connected layer be zero, as switch_to_training leaves them. After one infer and one backward, both of which return Ok, in exact arithmetic the recorded gradient of the weight (o,i) of this layer is the recorded gradient of bias o times entry i of the input of the layer. So every unit with a non-zero bias gradient shows the whole input of the layer as a quotient, for the first layer the example itself, whatever the weights and the loss are. In f32 the recorded gradient of the weight is the rounded product, up to the sign of zero and the payload of NaN; if it is finite and the bias gradient v is not zero, then the quotient is within a relative error of 2^-24 and an absolute one of 2^-150/|v| of the entry.", "quantifier": "all networks in training mode of fully connected, max-pool and softmax layers on which backward is defined, with any history, all parameters, inputs, loss gradients, layers, units and entries; both build profiles", "why_tests_cant": "quantifies over all networks, parameters, inputs and gradients", "anchors": ["src/network.rs:Network::backward", "src/layer/fully_connected.rs:FullyConnectedLayer::backward", "src/tensor.rs:Tensor::matrix_multiply_transpose_second", "src/tensor.rs:Tensor::add_to_self"]}
{"id": "C152", "title": "What no example contains is not learnt", "statement": "Take a network without convolutional layers in training mode, a fully connected layer of it with recorded gradients zero, and a batch of examples, each run through infer and backward. In exact arithmetic: if what enters the layer is for every example orthogonal to a direction d, then the recorded weight gradients of every unit are orthogonal to d, so weights moved along them by any step respond to d as before. If the layer is the first one, no example has a component along d and the layer did not respond to d, then after such a step, whatever happens to the biases and to the later layers, inputs that differ by d still get the same output. In f32: if entry i of what enters the layer is zero, of either sign, for all examples, then the recorded gradient of the weight (o,i) is zero for every unit o whose bias gradient is finite for each single example, and adding a finite multiple of it leaves the weight as it is, up to the sign of zero.", "quantifier": "all networks in training mode of fully connected, max-pool and softmax layers on which backward is defined, all batches, loss gradients, layers, units, directions and step sizes; both build profiles", "why_tests_cant": "quantifies over all batches of any length, all directions and all networks", "anchors": ["src/network.rs:Network::infer", "src/network.rs:Network::backward", "src/layer/fully_connected.rs:FullyConnectedLayer::backward", "src/tensor.rs:Tensor::matrix_multiply_transpose_second", "src/tensor.rs:Tensor::add_to_self"]}
{"id": "C153", "title": "Which laws of arithmetic the tensor operations keep", "statement": "In f32, for all tensors: add and multiply_elementwise give the same result, bit for bit up to the payload of NaN, when the operands are exchanged, and so do add_to_self and multiply_elementwise_self for tensors of one shape. Transposing a matrix product gives the same bits as multiplying the transposes in the other order. Without NaN, scale_self(1) changes nothing, scale_self(-1) twice changes nothing, and adding zeros changes at most the sign of zeros; with finite entries a tensor and its negative add up to +0 everywhere. The other laws fail for some finite tensors: sums and elementwise products depend on the brackets, adding and then subtracting a tensor need not give the first one back, and a factor cannot be taken out of a sum. In exact arithmetic the matrix product is associative.", "quantifier": "all tensors and shapes, both build profiles; the failures are witnessed", "why_tests_cant": "quantifies over all shapes and all bit patterns of all entries", "anchors": ["src/tensor.rs:Tensor::add", "src/tensor.rs:Tensor::add_to_self", "src/tensor.rs:Tensor::multiply_elementwise", "src/tensor.rs:Tensor::multiply_elementwise_self", "src/tensor.rs:Tensor::scale_self", "src/tensor.rs:Tensor::matrix_multiply", "src/tensor.rs:Tensor::transpose_ij"]}
{"id": "C154", "title": "What differences of scores mean for the probabilities", "statement": "In exact arithmetic, let softmax turn scores x into probabilities y (N entries). The ratio of two probabilities is the exponential of the difference of their scores. Raising one score and keeping the others raises its probability, if there are others, and lowers every other probability. A score that exceeds all others by m gets at least 1/(1+(N-1)exp(-m)), and a score that exceeds no other by more than m gets at most that, so a confident prediction needs a large difference. In every network that ends with a softmax layer, get_output after infer is softmax of the values before the last layer, so all this holds for its predictions.", "quantifier": "all shapes, scores, entries and margins; all networks that end with a softmax layer, all inputs, both modes and build profiles", "why_tests_cant": "quantifies over all real scores and all networks", "anchors": ["src/tensor.rs:Tensor::softmax", "src/layer/softmax.rs:SoftmaxLayer::forward", "src/network.rs:Network::infer"]}
{"id": "C155", "title": "In f32 a raised score takes nothing to the others but can lose itself", "statement": "In f32, let two score tensors of the same shape be given to softmax, such that exp of every entry is a non-negative number, no exp is lowered from the first to the second, and both computed sums of exponentials are finite and the first one positive. Then an entry whose score is the same in both never gets a larger probability in the second. For the raised score itself the law of C154 fails: with the scores 0x3f317217 and 0x418aa174 (about 0.693 and 17.329) and an exp that is correctly rounded there, raising the first score to the next f32 lowers its own probability, because the sum is rounded up.", "quantifier": "all pairs of tensors of all shapes, all f32 scores and all exp functions with the named conditions; the failure is a concrete witness", "why_tests_cant": "quantifies over all f32 tensors and exp functions; the failing pair is a rare rounding coincidence", "anchors": ["src/tensor.rs:Tensor::softmax"]}
{"id": "C156", "title": "The laws of norms, and which of them survive rounding", "statement": "In exact arithmetic get_norm of the sum that Tensor::add writes is at most the sum of the two norms; the absolute value of every entry is at most the norm; and n entries of absolute value at most m have a norm of at most sqrt(n)*m. In f32 get_norm is monotone in spite of rounding: if every entry of one tensor is at most as large in absolute value as the entry of another tensor at the same place, and both norms are finite, then the first norm is not greater than the second. But in f32 the triangle inequality fails even for small whole numbers: norm(7,7) is greater than norm(1,1)+norm(6,6); and the order of the entries matters: 3,3,5120 has a greater norm than 5120,3,3.", "quantifier": "all shapes and entries; the failures are concrete witnesses", "why_tests_cant": "quantifies over all pairs of tensors", "anchors": ["src/tensor.rs:Tensor::get_norm", "src/tensor.rs:Tensor::add"]}
{"id": "C157", "title": "The numbering of channels does not matter beyond rounding", "statement": "Take a network of convolution, max-pool and softmax layers, and a second one in which the channels between the layers are numbered differently: the kernels and biases of a convolutional layer are renumbered, and the channels of the kernels that read its output, possibly behind max pooling or softmax, are renumbered accordingly. Every layer may use its own numbering. For an image whose channels are renumbered as the first layer expects, the second network computes the output of the first with the channels renumbered as in the last layer: exactly in exact arithmetic, and in f32 up to twice the rounding error bound of C74 if all values stay in range.", "quantifier": "all networks of such layers, all renumberings at every place, all images, both modes and build profiles", "why_tests_cant": "quantifies over all networks and all renumberings", "anchors": ["src/layer/convolutional.rs:ConvolutionalLayer::forward", "src/layer/max_pool.rs:MaxPoolLayer::forward", "src/layer/softmax.rs:SoftmaxLayer::forward", "src/network.rs:Network::infer"]}
{"id": "C158", "title": "Scaling the scores sharpens or flattens the probabilities", "statement": "In exact arithmetic, let softmax be applied to scores x and to the scores that scale_self(c) makes of them. All probabilities are positive, and the odds of any two entries are those of x raised to the power c. If c is at least 1, the largest probability does not fall and the smallest does not rise. With c = 0 all N probabilities are 1/N. If one score is above all others, then for every e > 0 its probability is at least 1-e for all c from some point on. In two networks that end with a fully connected layer and softmax and agree but for the weights and biases of that fully connected layer, which are c times as large in the second (c >= 0), the scores of the second after infer are those of the first scaled by c, and the outputs are what softmax makes of them; for c >= 1 the largest entry of the first output is not larger than that entry of the second.", "quantifier": "all shapes, scores, entries and factors; all built networks with such layers at the end and all inputs", "why_tests_cant": "quantifies over all real scores and factors, and over a limit", "anchors": ["src/tensor.rs:Tensor::softmax", "src/tensor.rs:Tensor::scale_self"]}
{"id": "C159", "title": "How much of a gradient a softmax layer passes on", "statement": "In exact arithmetic, let backward of a softmax layer on a column be given the output p of forward and a gradient g whose entries lie between lo and hi. The entry i of the gradient it passes on is at most p_i (1-p_i) (hi-lo) in absolute value, so at most a quarter of the range; the absolute values of all entries sum to at most half the range, and to at most 2 (1-p_c) (hi-lo) for every entry c, so a layer that is sure of one class passes on next to nothing. The product of the incoming and the passed gradient is never negative. It is zero exactly if all entries of g are equal, and exactly then nothing is passed on.", "quantifier": "all softmax layers on columns in training mode, all inputs, incoming gradients and entries, both build profiles, exact arithmetic", "why_tests_cant": "quantifies over all column lengths, inputs and gradients; a test checks one gradient", "anchors": ["src/layer/softmax.rs:SoftmaxLayer::backward", "src/layer/softmax.rs:SoftmaxLayer::forward", "src/tensor.rs:Tensor::softmax"]}
{"id": "C160", "title": "Classes with negative scores cannot be told apart and are not trained", "statement": "A fully connected layer clamps its results at zero also when it is the last layer before softmax. So in a network that ends with these two layers, all classes whose score before the clamping is not positive get the same probability from infer, in f32 to the bit, however far apart the scores are. In exact arithmetic no class is less likely than these; a class is as unlikely as they are only if its own score is not positive; they get at most 1/N each of N classes; and if no score is positive, every class gets 1/N. In f32, infer followed by backward with any gradient records nothing for a class whose score is not positive, even if it is the right class: the recorded gradients of its weights and bias stay the same numbers, or become NaN; no NaN appears if the gradient that reaches the layer and the input of the layer are finite.", "quantifier": "all built networks with these last layers, in both modes, all inputs and classes, both build profiles; equality in every arithmetic including f32; training without convolutional layers", "why_tests_cant": "quantifies over all networks and inputs; a test shows one prediction", "anchors": ["src/layer/fully_connected.rs:FullyConnectedLayer::forward", "src/tensor.rs:Tensor::softmax", "src/network.rs:Network::infer", "src/layer/fully_connected.rs:FullyConnectedLayer::backward"]}
