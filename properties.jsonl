{"id": "C01", "title": "Loaded layers are listed in an order that respects the data flow", "statement": "Whenever tri_topo returns a layer list for a model, every layer of the model that was given appears in it exactly once and every layer comes after all of its producers, so running the list from left to right never reads a tensor that has not been computed.", "quantifier": "every list of layers with unique indices and any wiring between them (cyclic or not), for which loading returns instead of raising", "why_tests_cant": "The set of graphs is infinite and the depth-first order depends on the wiring; a test exercises a handful of networks.", "anchors": ["src/acetone_nnet/graph/graph_interpretor.py: tri_topo, parcours_prof_topo, assign_liveliness_index"]}
{"id": "C02", "title": "Every acyclic model can be ordered and allocated", "statement": "For every acyclic model whose links are mutually consistent, tri_topo terminates and returns an ordering, without hitting an internal assertion.", "quantifier": "every acyclic layer graph with consistent previous/next links, constants included", "why_tests_cant": "Depends on the position of constant layers in every possible graph; only a proof covers all wirings (and exhibits the one that fails).", "anchors": ["src/acetone_nnet/graph/graph_interpretor.py: tri_topo, parcours_prof_topo, assign_liveliness_index"]}
{"id": "C03", "title": "No two tensors that are still needed share a working buffer", "statement": "After loading, if the outputs of two different layers are both still needed at some step of the execution (each has been computed and has a consumer that has not run yet), they are assigned different output buffers (path).", "quantifier": "every execution order of every network, every step of the order, every pair of layers", "why_tests_cant": "Needs all pairs of layers at all steps of all graphs; a violating graph is silently miscompiled, not a crash.", "anchors": ["src/acetone_nnet/graph/graph_interpretor.py: assign_liveliness_index"]}
{"id": "C04", "title": "No two multi-consumer tensors that are still needed share a cst buffer", "statement": "The constant buffers (cst_k) in which the outputs of layers with several consumers are saved are never shared by two layers whose outputs are both still needed, and a layer gets a cst buffer exactly when it has more than one consumer link.", "quantifier": "every execution order of every network, every step, every pair of layers", "why_tests_cant": "Same as above: a quantification over all graphs, steps and pairs.", "anchors": ["src/acetone_nnet/graph/graph_interpretor.py: assign_cst"]}
{"id": "C05", "title": "Every buffer a layer refers to is declared", "statement": "Each layer's path is smaller than the number of paths reported by tri_topo (the number of output_k arrays declared in the generated header), the number of paths never exceeds the number of layers, and every cst index is smaller than the number of multi-consumer layers.", "quantifier": "every network and every layer in it", "why_tests_cant": "Tests see the indices of a few networks only.", "anchors": ["src/acetone_nnet/graph/graph_interpretor.py: tri_topo, assign_liveliness_index, assign_cst", "src/acetone_nnet/generator/neural_network.py: generate_function_header_file"]}
{"id": "C06", "title": "The generated inference function computes the same function as the reference interpreter", "statement": "If the C code of every layer computes that layer's reference function from the buffers it reads into its own output buffer, then the whole generated inference function (layers in order, with saved copies for multi-consumer layers) leaves in the last layer's buffer exactly the value the Python interpreter computes by passing tensors along the graph.", "quantifier": "every network with unique layer indices, every kernel family, every input, every initial content of the working memory", "why_tests_cant": "It is a statement about all graphs and all memory contents (stale data from earlier inferences included); buffer reuse bugs show only on particular graph shapes.", "anchors": ["src/acetone_nnet/generator/neural_network.py: compute_inference, generate_function_source_file", "src/acetone_nnet/graph/graph_interpretor.py", "src/acetone_nnet/ir/layer.py: find_output_str"]}
{"id": "C07", "title": "A layer that is the only consumer of its only producer works in place", "statement": "If a layer has exactly one producer and is that producer's only consumer then both are assigned the same output buffer; the code generated for Flatten and for the gemm convolutions reads its input from its own buffer and relies on this.", "quantifier": "every execution order of every network and every such pair of layers", "why_tests_cant": "Holds because of the free-list discipline; it must hold for every graph or the generated code reads garbage.", "anchors": ["src/acetone_nnet/graph/graph_interpretor.py: assign_liveliness_index", "src/acetone_nnet/templates/layers/template_Flatten.c.tpl", "src/acetone_nnet/templates/layers/Conv/template_Conv_std_gemm.c.tpl"]}
{"id": "C08", "title": "Dense: generated code equals the reference", "statement": "The C code generated for a Dense layer, run on any memory in which its producer's buffer holds the input (possibly the same buffer as its own output), leaves activation(W^T x + b) in its output buffer, equal to the Python reference, touches no other buffer but the scratch one and never accesses an array out of bounds.", "quantifier": "every input size, output size, weight, bias, input, activation and initial memory; aliased or distinct input/output buffers", "why_tests_cant": "Quantifies over all shapes, all tensor and weight values and all initial memory contents, and includes the absence of any out-of-bounds access; tests run a few shapes with random values.", "anchors": ["src/acetone_nnet/generator/layers/dense/Dense.py: forward_path_layer", "src/acetone_nnet/generator/layers/dense/DenseDefault.py", "src/acetone_nnet/templates/layers/template_Dense.c.tpl"]}
{"id": "C09", "title": "MatMul: generated code equals the reference matrix product", "statement": "The C code generated for a MatMul layer leaves the activated matrix product of its two operands in its output buffer, equal to the Python reference, without out-of-bounds access, also when an operand lives in the output buffer.", "quantifier": "every pair of operand shapes accepted by the constructor, every content, every initial memory", "why_tests_cant": "Quantifies over all shapes, all tensor and weight values and all initial memory contents, and includes the absence of any out-of-bounds access; tests run a few shapes with random values.", "anchors": ["src/acetone_nnet/generator/layers/matmul/MatMul.py", "src/acetone_nnet/generator/layers/matmul/MatMulDefault.py", "src/acetone_nnet/templates/layers/template_MatMul.c.tpl"]}
{"id": "C10", "title": "Gemm: generated code equals alpha*op(A)*op(B)+beta*C for the four transposition cases", "statement": "For each of the four (transA, transB) combinations the generated C code leaves act(alpha*op(A)op(B)+beta*C) in the output buffer, equal to the Python reference, without out-of-bounds access, for every bias the constructor accepts.", "quantifier": "every shape, transposition flags, alpha, beta, bias shape accepted by the constructor, contents and memory", "why_tests_cant": "Quantifies over all shapes, all tensor and weight values and all initial memory contents, and includes the absence of any out-of-bounds access; tests run a few shapes with random values.", "anchors": ["src/acetone_nnet/generator/layers/gemm/Gemm.py", "src/acetone_nnet/generator/layers/gemm/GemmDefault.py", "src/acetone_nnet/templates/layers/Gemm/*.tpl"]}
{"id": "C11", "title": "Conv2D 6loops: generated code equals the mathematical convolution and the reference", "statement": "The C code of the default convolution leaves in its output buffer, for every output channel and position, act(bias + sum over input channels and kernel of weight times zero-padded input at the strided, dilated position), stays in bounds, and equals the Python reference.", "quantifier": "every shape, kernel, stride, dilation, padding, weight, input and memory", "why_tests_cant": "Quantifies over all shapes, all tensor and weight values and all initial memory contents, and includes the absence of any out-of-bounds access; tests run a few shapes with random values.", "anchors": ["src/acetone_nnet/generator/layers/convolution/Conv2D.py: forward_path_layer", "src/acetone_nnet/generator/layers/convolution/Conv2D6loops.py", "src/acetone_nnet/templates/layers/Conv/template_Conv_6loops.c.tpl"]}
{"id": "C12", "title": "Conv2D std_gemm_nn computes the same function as Conv2D 6loops", "statement": "Selecting the std_gemm_nn implementation instead of 6loops does not change the tensor computed by a convolution, whatever the shape, stride, dilation and padding.", "quantifier": "every convolution configuration, weight, input and memory satisfying the in-place convention", "why_tests_cant": "Quantifies over all shapes, all tensor and weight values and all initial memory contents, and includes the absence of any out-of-bounds access; tests run a few shapes with random values.", "anchors": ["src/acetone_nnet/generator/layers/convolution/Conv2DGemm.py", "src/acetone_nnet/generator/layers/convolution/Conv2DStdGemm.py", "src/acetone_nnet/templates/layers/Conv/template_im2col.c.tpl", "src/acetone_nnet/templates/layers/Conv/template_Conv_gemm_nn.c.tpl", "src/acetone_nnet/templates/layers/Conv/template_Conv_std_gemm.c.tpl"]}
{"id": "C13", "title": "Pooling: generated code equals the reference", "statement": "The C code of max and average pooling leaves in its output buffer the maximum (average) over each strided window, equal to the Python reference, without out-of-bounds access, for every padding.", "quantifier": "every shape, pool size, stride, padding, input and memory", "why_tests_cant": "Quantifies over all shapes, all tensor and weight values and all initial memory contents, and includes the absence of any out-of-bounds access; tests run a few shapes with random values.", "anchors": ["src/acetone_nnet/generator/layers/pooling/Pooling2D.py", "src/acetone_nnet/generator/layers/pooling/max_pooling/MaxPooling2DDefault.py", "src/acetone_nnet/generator/layers/pooling/average_pooling/AveragePooling2DDefault.py", "src/acetone_nnet/templates/layers/template_Pooling2D.c.tpl"]}
{"id": "C14", "title": "Element-wise broadcast layers: generated code equals the reference", "statement": "Add, Subtract, Multiply, Divide, Maximum, Minimum and Average over any number of producers with broadcastable shapes leave in the output buffer the activated element-wise result with numpy broadcasting, without out-of-bounds access, also when an operand lives in the output buffer.", "quantifier": "every number of operands, every broadcastable family of shapes, contents, memory", "why_tests_cant": "Quantifies over all shapes, all tensor and weight values and all initial memory contents, and includes the absence of any out-of-bounds access; tests run a few shapes with random values.", "anchors": ["src/acetone_nnet/generator/layers/broadcast/Broadcast.py", "src/acetone_nnet/generator/layers/broadcast/*/", "src/acetone_nnet/templates/layers/template_Broadcast.c.tpl"]}
{"id": "C15", "title": "Concatenate: generated code equals the reference", "statement": "Concatenating any number of tensors along channel, height or width copies every input element to the position given by the sum of the sizes of the preceding inputs, and nothing else, without out-of-bounds access.", "quantifier": "every axis, number of inputs, shapes accepted by the constructor, contents and memory", "why_tests_cant": "Quantifies over all shapes, all tensor and weight values and all initial memory contents, and includes the absence of any out-of-bounds access; tests run a few shapes with random values.", "anchors": ["src/acetone_nnet/generator/layers/concatenate/Concatenate.py", "src/acetone_nnet/generator/layers/concatenate/ConcatenateDefault.py", "src/acetone_nnet/templates/layers/template_Concatenate.c.tpl"]}
{"id": "C16", "title": "Gather: generated code equals numpy take", "statement": "The C code of Gather along any axis leaves input[..., indices[p], ...] at position p along that axis, without out-of-bounds access, for every index list accepted by the constructor.", "quantifier": "every shape, axis, index list (repetitions allowed), contents and memory", "why_tests_cant": "Quantifies over all shapes, all tensor and weight values and all initial memory contents, and includes the absence of any out-of-bounds access; tests run a few shapes with random values.", "anchors": ["src/acetone_nnet/generator/layers/gather/Gather.py", "src/acetone_nnet/generator/layers/gather/GatherDefault.py", "src/acetone_nnet/templates/layers/template_Gather.c.tpl"]}
{"id": "C17", "title": "GatherElements: generated code equals the reference", "statement": "GatherElements along any axis leaves input with the axis coordinate replaced by the index tensor's value at the same position, without out-of-bounds access.", "quantifier": "every shape, axis, index tensor accepted by the constructor, contents and memory", "why_tests_cant": "Quantifies over all shapes, all tensor and weight values and all initial memory contents, and includes the absence of any out-of-bounds access; tests run a few shapes with random values.", "anchors": ["src/acetone_nnet/generator/layers/gather_elements/GatherElements.py", "src/acetone_nnet/generator/layers/gather_elements/GatherElementsDefault.py", "src/acetone_nnet/templates/layers/template_GatherElements.c.tpl"]}
{"id": "C18", "title": "Tile: generated code equals numpy tile", "statement": "Tile repeats the input the requested number of times along each axis, without out-of-bounds access.", "quantifier": "every shape, positive repeats, contents and memory", "why_tests_cant": "Quantifies over all shapes, all tensor and weight values and all initial memory contents, and includes the absence of any out-of-bounds access; tests run a few shapes with random values.", "anchors": ["src/acetone_nnet/generator/layers/tile/Tile.py", "src/acetone_nnet/generator/layers/tile/TileDefault.py", "src/acetone_nnet/templates/layers/template_Tile.c.tpl"]}
{"id": "C19", "title": "Transpose: generated code equals numpy transpose", "statement": "For every permutation of channel, height and width the generated code moves each element to its transposed position, as numpy.transpose does, and the result is a bijective rearrangement of the input.", "quantifier": "every permutation accepted by the constructor that keeps the batch axis, every shape, contents and memory", "why_tests_cant": "Quantifies over all shapes, all tensor and weight values and all initial memory contents, and includes the absence of any out-of-bounds access; tests run a few shapes with random values.", "anchors": ["src/acetone_nnet/generator/layers/transpose/Transpose.py", "src/acetone_nnet/generator/layers/transpose/TransposeDefault.py", "src/acetone_nnet/templates/layers/template_Transpose.c.tpl"]}
{"id": "C20", "title": "Constant padding: generated code equals the reference", "statement": "ConstantPad places the input at the requested offset and the constant everywhere else, without out-of-bounds access.", "quantifier": "every shape, non-negative pads, constant, contents and memory", "why_tests_cant": "Quantifies over all shapes, all tensor and weight values and all initial memory contents, and includes the absence of any out-of-bounds access; tests run a few shapes with random values.", "anchors": ["src/acetone_nnet/generator/layers/padding/Pad.py", "src/acetone_nnet/generator/layers/padding/constant_pad/*", "src/acetone_nnet/templates/layers/Pad/template_Constant_Pad.c.tpl"]}
{"id": "C21", "title": "Edge, reflect and wrap padding: generated code equals numpy pad", "statement": "EdgePad, ReflectPad and WrapPad fill the border with, respectively, the nearest edge element, the mirror image and the periodic continuation of the input, as numpy.pad does, and apply the fused activation once, without out-of-bounds access or division by zero.", "quantifier": "every shape, non-negative pads, contents and memory", "why_tests_cant": "Quantifies over all shapes, all tensor and weight values and all initial memory contents, and includes the absence of any out-of-bounds access; tests run a few shapes with random values.", "anchors": ["src/acetone_nnet/generator/layers/padding/*", "src/acetone_nnet/templates/layers/Pad/template_Pad_Non_Constant.c.tpl", "src/acetone_nnet/templates/layers/Pad/template_Edge_Pad.c.tpl", "src/acetone_nnet/templates/layers/Pad/template_Reflect_Pad.c.tpl", "src/acetone_nnet/templates/layers/Pad/template_Wrap_Pad.c.tpl"]}
{"id": "C22", "title": "Flatten: generated code equals the reference", "statement": "The code generated for Flatten leaves its producer's tensor in the layer's output buffer, re-ordered to channels-last when the model is channels-last and unchanged otherwise.", "quantifier": "every shape, data format, contents, memory and position of the layer in the graph", "why_tests_cant": "Quantifies over all shapes, all tensor and weight values and all initial memory contents, and includes the absence of any out-of-bounds access; tests run a few shapes with random values.", "anchors": ["src/acetone_nnet/generator/layers/flatten/Flatten.py", "src/acetone_nnet/generator/layers/flatten/FlattenDefault.py", "src/acetone_nnet/templates/layers/template_Flatten.c.tpl"]}
{"id": "C23", "title": "Input and output layout conversions are inverse bijections", "statement": "Converting a tensor from channels-first to channels-last and back (or the other way round), as done by the generated input and output code, restores every element, stays in bounds and writes each destination cell exactly once.", "quantifier": "every number of channels, height, width, every tensor", "why_tests_cant": "Quantifies over all shapes, all tensor and weight values and all initial memory contents, and includes the absence of any out-of-bounds access; tests run a few shapes with random values.", "anchors": ["src/acetone_nnet/templates/memory_layout/*", "src/acetone_nnet/templates/layers/template_Input_Layer.c.tpl", "src/acetone_nnet/generator/layers/input/InputDefault.py", "src/acetone_nnet/generator/neural_network.py: generate_function_source_file"]}
{"id": "C24", "title": "Reduce: generated code equals numpy reductions", "statement": "ReduceSum, ReduceProd, ReduceMean, ReduceMax and ReduceMin over any set of axes leave the reduced tensor in the output buffer, equal to the Python reference, without out-of-bounds access.", "quantifier": "every shape, axis tuple, noop flag, contents and memory", "why_tests_cant": "Quantifies over all shapes, all tensor and weight values and all initial memory contents, and includes the absence of any out-of-bounds access; tests run a few shapes with random values.", "anchors": ["src/acetone_nnet/generator/layers/reduce/Reduce.py", "src/acetone_nnet/generator/layers/reduce/*/", "src/acetone_nnet/templates/layers/template_Reduce.c.tpl"]}
{"id": "C25", "title": "Softmax: generated code equals the reference and is a probability distribution", "statement": "The generated Softmax code computes exp(x)/sum(exp(x)) along the selected axis as the reference does, also in place; the outputs along the axis are positive and sum to one.", "quantifier": "every shape, axis, real input and memory", "why_tests_cant": "Quantifies over all shapes, all tensor and weight values and all initial memory contents, and includes the absence of any out-of-bounds access; tests run a few shapes with random values.", "anchors": ["src/acetone_nnet/generator/layers/softmax/Softmax.py", "src/acetone_nnet/generator/layers/softmax/SoftmaxDefault.py", "src/acetone_nnet/templates/layers/template_Softmax.c.tpl"]}
{"id": "C26", "title": "BatchNormalization: generated code equals the reference", "statement": "The generated code computes act(scale*(x-mean)/sqrt(var+eps)+bias) for each channel as the reference does, in place or not, without out-of-bounds access.", "quantifier": "every shape, parameters, input and memory", "why_tests_cant": "Quantifies over all shapes, all tensor and weight values and all initial memory contents, and includes the absence of any out-of-bounds access; tests run a few shapes with random values.", "anchors": ["src/acetone_nnet/generator/layers/batch_normalization/*", "src/acetone_nnet/templates/layers/template_BatchNormalization.c.tpl"]}
{"id": "C27", "title": "Nearest resize: generated code equals the reference and stays in bounds", "statement": "ResizeNearest reads, for each output position, the input element selected by the coordinate transformation and the rounding mode; generated code and reference pick the same element and never index outside the input.", "quantifier": "every input size, output size, coordinate transformation and nearest mode accepted by the constructor", "why_tests_cant": "Quantifies over all shapes, all tensor and weight values and all initial memory contents, and includes the absence of any out-of-bounds access; tests run a few shapes with random values.", "anchors": ["src/acetone_nnet/generator/layers/resize/Resize.py", "src/acetone_nnet/generator/layers/resize/resize_nearest/*", "src/acetone_nnet/templates/layers/Resize/template_ResizeNearest.c.tpl"]}
{"id": "C28", "title": "Linear and cubic resize: generated code equals the reference", "statement": "The 1D and 2D code generated for linear and cubic resize computes the same interpolated value as the Python reference; interpolation weights sum to one so constant images are preserved.", "quantifier": "every input/output size, fractional position, cubic coefficient and pixel values", "why_tests_cant": "Quantifies over all shapes, all tensor and weight values and all initial memory contents, and includes the absence of any out-of-bounds access; tests run a few shapes with random values.", "anchors": ["src/acetone_nnet/generator/layers/resize/resize_linear/*", "src/acetone_nnet/generator/layers/resize/resize_cubic/*", "src/acetone_nnet/templates/layers/Resize/template_ResizeLinear1D.c.tpl", "src/acetone_nnet/templates/layers/Resize/template_ResizeLinear2D.c.tpl", "src/acetone_nnet/templates/layers/Resize/template_ResizeCubic1D.c.tpl", "src/acetone_nnet/templates/layers/Resize/template_ResizeCubic2D.c.tpl"]}
{"id": "C29", "title": "Activation functions: the C expression equals the reference", "statement": "For every activation function the C expression written in the generated code evaluates to the value the Python reference computes, on every real argument; ReLU, LeakyReLU and Clip have their textbook meaning.", "quantifier": "every real argument, every admissible parameter (alpha, min, max)", "why_tests_cant": "Continuum of arguments and parameters; boundary cases (0, min=max, negative) are easily missed.", "anchors": ["src/acetone_nnet/generator/activation_functions.py"]}
{"id": "C30", "title": "Winograd F(2x2,3x3) tiles compute the 3x3 convolution", "statement": "The winograd convolution variant computes, for every tile, exactly the four stride-1 3x3 convolution outputs of the tile, and the loop over tiles covers every output position.", "quantifier": "every kernel and input values, every output height and width for which the variant is selected", "why_tests_cant": "A polynomial identity over all inputs, and a coverage claim over all sizes.", "anchors": ["src/acetone_nnet/templates/layers/Conv/template_Conv3x3_winograd.c.tpl", "src/acetone_nnet/generator/layers/convolution/Conv2Ddirect_block.py"]}
{"id": "C31", "title": "'same' padding yields ceil(input/stride) outputs", "statement": "With padding 'same' (SAME_UPPER/SAME_LOWER) the computed top/bottom/left/right pads are non-negative, differ by at most one on each axis, with the extra pad on the documented side, and give exactly ceil(input/stride) output rows and columns; 'valid' gives zero pads.", "quantifier": "every input size, kernel size, stride and dilation", "why_tests_cant": "All sizes and strides; off-by-one errors depend on residues.", "anchors": ["src/acetone_nnet/ir/layer.py: compute_padding", "src/acetone_nnet/generator/layers/convolution/Conv2D.py", "src/acetone_nnet/generator/layers/pooling/Pooling2D.py"]}
{"id": "C32", "title": "Working arrays are large enough", "statement": "The sizes given in the generated header to the output_k, cst_k and tensor_temp arrays are at least the size of every tensor, and of every im2col patch matrix, that any layer stores in them.", "quantifier": "every network, every layer, every assignment of layers to buffers", "why_tests_cant": "A memory-safety claim over all networks.", "anchors": ["src/acetone_nnet/generator/neural_network.py: generate_function_source_file, generate_function_header_file"]}
{"id": "C33", "title": "Fusing BatchNormalization into a convolution preserves the function", "statement": "A Conv2D followed by BatchNormalization computes the same tensor as the single convolution with folded weights and bias produced by the optimisation, for every activation placed after it.", "quantifier": "every convolution, batch-norm parameters with var+eps>0, every input", "why_tests_cant": "Continuum of parameters and inputs, all shapes.", "anchors": ["src/acetone_nnet/pattern_matching/patterns/FuseConvBatchNorm.py"]}
{"id": "C34", "title": "Fusing Sigmoid and Multiply into SiLU preserves the function", "statement": "Replacing Sigmoid(x) * x by the SiLU activation computes the same value for every x.", "quantifier": "every real input", "why_tests_cant": "Continuum of inputs.", "anchors": ["src/acetone_nnet/pattern_matching/patterns/FuseSigmoidMul.py", "src/acetone_nnet/generator/activation_functions.py: Silu, Sigmoid"]}
{"id": "C35", "title": "Fusing an activation layer into its producer preserves the computed network", "statement": "When the optimiser removes an activation layer and attaches its function to the producer, every remaining layer of the network computes the same tensor as before.", "quantifier": "every network, every matched activation layer, every input", "why_tests_cant": "All graphs and inputs; a wrong match (producer with several consumers or already activated) is a silent miscompilation.", "anchors": ["src/acetone_nnet/pattern_matching/patterns/FuseActivationLayers.py", "src/acetone_nnet/pattern_matching/Pattern.py", "src/acetone_nnet/pattern_matching/PatternMatcher.py"]}
{"id": "C36", "title": "Layer indices stay unique and dense after optimisation", "statement": "After removing layers, the optimiser renumbers the remaining ones so that indices are again distinct and consecutive; weight arrays in the generated code are named after these indices.", "quantifier": "every layer list and every sequence of removals", "why_tests_cant": "Depends on the relation between list order and numbering in all networks; collisions silently merge weight arrays.", "anchors": ["src/acetone_nnet/pattern_matching/Pattern.py: update_indices", "src/acetone_nnet/pattern_matching/patterns/*"]}
{"id": "C37", "title": "The implementation chosen for each layer follows the documented priority", "statement": "For each layer the selected implementation is the one requested for its index, else the one requested for its layer type, else the default (6loops for Conv2D, default otherwise); no other layer's request influences it.", "quantifier": "every request dictionary, every layer list", "why_tests_cant": "All dictionaries and layer lists.", "anchors": ["src/acetone_nnet/generator/neural_network.py: select_layers_implementation", "src/acetone_nnet/versioning/versioning.py"]}
{"id": "C38", "title": "Implementation registry: lookups return what was registered, never overwritten", "statement": "A layer factory returns the implementation registered under a name; registering a name twice and asking for an unknown name are refused, and a refused registration changes nothing.", "quantifier": "every sequence of registrations and lookups", "why_tests_cant": "All histories of operations.", "anchors": ["src/acetone_nnet/versioning/layer_factories.py", "src/acetone_nnet/versioning/versioning.py"]}
{"id": "C39", "title": "Code generation never overwrites existing files", "statement": "generate_c_files raises without writing anything when any of the files it would produce already exists, and otherwise creates exactly the announced files.", "quantifier": "every file system state and file list", "why_tests_cant": "All directory states.", "anchors": ["src/acetone_nnet/generator/neural_network.py: generate_c_files"]}
{"id": "C40", "title": "The generated test driver runs each dataset sample exactly once, in order", "statement": "The blocked loop of the generated main calls the inference function exactly once for each of the nb_tests samples, with matching input and prediction rows, and never beyond.", "quantifier": "every number of samples", "why_tests_cant": "Boundary behaviour at multiples of the block size for all n.", "anchors": ["src/acetone_nnet/templates/template_main_file.c.tpl"]}
{"id": "C41", "title": "Binary parameter blocks are aligned and do not overlap", "statement": "In the binary parameter file each block starts at a multiple of the page size at or after the end of the previous block, with less than one page of padding.", "quantifier": "every sequence of block sizes and every power-of-two page size", "why_tests_cant": "All sizes and alignments, bit-level arithmetic.", "anchors": ["src/acetone_nnet/generator/neural_network.py: generate_parameter_bin_file / align_up"]}
{"id": "C42", "title": "Hexadecimal constants written in the C code denote the exact model parameter", "statement": "The shortened hexadecimal float literal written for a parameter denotes exactly the same number as the unshortened one (trailing zeros only are removed).", "quantifier": "every mantissa digit string and exponent", "why_tests_cant": "All 2^64 doubles.", "anchors": ["src/acetone_nnet/generator/neural_network.py: data2c, c2data"]}
{"id": "C43", "title": "Q-format parsing accepts exactly Qm.n and round-trips", "statement": "parse_q_format returns (m, n) for the text 'Qm.n' with integer m (possibly negative) and natural n, and rejects every other string.", "quantifier": "every string, every m and n", "why_tests_cant": "All strings.", "anchors": ["src/acetone_nnet/quantize/qform.py"]}
{"id": "C44", "title": "Quantised shift activation: generated code equals the reference shift", "statement": "The C shift expression used after a quantised layer computes the same integer as the Python reference: floor division by 2^shift with shift = max(m_in + m_param - m_out, 0), and the re-scaled value differs from the exact one by less than one unit in the last place.", "quantifier": "every accumulator value and Q-format", "why_tests_cant": "All integers including negatives.", "anchors": ["src/acetone_nnet/quantize/activation.py", "src/acetone_nnet/generator/neural_network.py: quantize_layers"]}
{"id": "C45", "title": "NNET files are loaded as the network they describe", "statement": "For a .nnet description the loader builds a chain of dense layers such that running it computes, layer by layer, relu(W x + b) with the file's weight rows, and the last layer without relu.", "quantifier": "every number of layers, layer sizes, weights, biases and inputs", "why_tests_cant": "All files.", "anchors": ["src/acetone_nnet/importers/NNET_importer/parser_NNET.py: load_nnet, generate_layers"]}
{"id": "C46", "title": "NNET normalisation: generated code equals the reference", "statement": "The generated pre- and post-processing code computes the same normalised inputs and de-normalised outputs as the Python Normalizer, for every input, and clamps inputs into [min,max] first.", "quantifier": "every input vector, mins<=maxes, means, ranges", "why_tests_cant": "Continuum of inputs.", "anchors": ["src/acetone_nnet/importers/NNET_importer/nnet_normalize.py", "src/acetone_nnet/templates/normalization/*"]}
{"id": "C47", "title": "acetone_compare reports equality only for files that agree", "statement": "compare_files returns True only if the two result files have the same number of values on each of the first nb_tests lines and corresponding values are within the tolerance.", "quantifier": "every pair of files and every number of tests", "why_tests_cant": "All file pairs, including truncated ones.", "anchors": ["src/acetone_nnet/cli/compare.py"]}
{"id": "C48", "title": "Debug outputs are matched to layers in index order", "statement": "The debug helpers return, for the requested layer indices, the recorded outputs sorted by layer index without losing or duplicating any.", "quantifier": "every list of recorded outputs and requested indices", "why_tests_cant": "All index lists (single and multi digit).", "anchors": ["src/acetone_nnet/debug/debug_tools.py: reorder_outputs, extract_outputs_python, extract_outputs_c"]}
{"id": "C49", "title": "Model format dispatch", "statement": "The importer chosen for a path depends only on its extension as documented (.json, .onnx, .h5, .nnet) and any other path is rejected.", "quantifier": "every path string", "why_tests_cant": "All strings.", "anchors": ["src/acetone_nnet/importers/parser.py"]}
{"id": "C50", "title": "Blocked convolution: the direct_block implementation equals the convolution", "statement": "For a layer of one group handled by the blocked loop nest (not depth-wise, not winograd), the generated code leaves in the output buffer, channels-last, the same tensor as the Python reference and the mathematical convolution, without out-of-bounds access, using the weights in the layout written to the parameter file; layers whose filter count is not a multiple of the block are rejected when the layer is built.", "quantifier": "every channel and filter count, image size, kernel, stride, padding with equal top and left pads, weights, biases, activation and both parameter file formats", "why_tests_cant": "All sizes and blockings.", "anchors": ["src/acetone_nnet/generator/layers/convolution/Conv2Ddirect_block.py", "src/acetone_nnet/templates/layers/Conv/template_Conv_direct_block.c.tpl", "src/acetone_nnet/generator/neural_network.py: generate_bin_parameter_file, generate_parameter_file"]}
{"id": "C51", "title": "Depth-wise convolution: generated code equals the depth-wise convolution and the reference", "statement": "For a layer with group = filters = input channels, the direct_block code computes for each channel the convolution of that channel with its own kernel, and the Python reference computes the same tensor.", "quantifier": "every channel count, image size, kernel, stride, padding, weights, biases and input", "why_tests_cant": "All sizes and values.", "anchors": ["src/acetone_nnet/generator/layers/convolution/Conv2Ddirect_block.py", "src/acetone_nnet/templates/layers/Conv/template_Conv_DW_HWC.c.tpl", "src/acetone_nnet/generator/layers/convolution/Conv2D.py: forward_path_layer"]}
{"id": "C52", "title": "End to end: the generated function returns the prediction of the Python reference", "statement": "For a network built from the supported layers, calling the generated inference function on an input writes to `prediction` exactly the tensor that compute_inference returns for this input, with no access outside an array, and leaves the input and the parameters unchanged, provided the layers meet the conditions under which their own code is right (C08-C30) and, for channels-last models, the last layer's array has rank three; for the other last layers compute_inference raises.", "quantifier": "every network (any number of layers, branches, residual connections, multi-consumer layers), every layer kind, attribute and parameter value, every input, both data formats", "why_tests_cant": "All networks and inputs at once: interaction of scheduling, buffer sharing, saved copies, layout changes and layer code.", "anchors": ["src/acetone_nnet/generator/neural_network.py: compute_inference, generate_inference_file", "src/acetone_nnet/graph/graph_interpretor.py", "src/acetone_nnet/generator/layers/*", "src/acetone_nnet/templates/template_source_file.c.tpl"]}
{"id": "C53", "title": "Template text: what the rendered C text does is what the layer's program does", "statement": "The characters of a layer's template, rendered with the values its generator passes, form a C program; compiled and run where the file's declarations are in scope, that program terminates and has exactly the memory effect claimed for the layer (same loads and stores, fails exactly when an access is out of bounds), and changes no variable other than the scratch variables the source file declares.", "quantifier": "every template text in the repository that is filled by a modelled layer, every shape, stride, padding, index, activation function, source array, initial memory and initial values of the scratch variables", "why_tests_cant": "The template, the substituted values, C's grammar (precedence, scoping, implicit conversions) and its execution on all sizes at once; tests run a few rendered instances.", "anchors": ["src/acetone_nnet/templates/layers/*.c.tpl", "src/acetone_nnet/generator/layers/*/*Default.py: generate_inference_code_layer", "src/acetone_nnet/generator/activation_functions.py", "src/acetone_nnet/templates/template_source_file.c.tpl"]}
{"id": "C54", "title": "Source file: the text of the inference function does what the inference program does", "statement": "For every network of layers whose text is produced by a supported template, the source file the generator writes for it defines a C function `inference` with the sizes of the last and first layer as array sizes, in which no block declares an identifier twice and only arrays of the network are named; called on a memory on which the inference program (C06) succeeds, it terminates and leaves the same memory, whatever the initial values of its local variables.", "quantifier": "every network (any number of layers, any graph, any mix of layer kinds), every attribute, parameter value, memory and initial value of the locals", "why_tests_cant": "The file is assembled from sections switched by flags that scan all layers; whether each variable a layer uses is declared, and declared once, depends on the whole network.", "anchors": ["src/acetone_nnet/generator/neural_network.py: generate_function_source_file", "src/acetone_nnet/templates/template_source_file.c.tpl", "src/acetone_nnet/templates/layers/*.c.tpl", "src/acetone_nnet/templates/memory_layout/template_output.c.tpl"]}
{"id": "C55", "title": "Text end to end: running the text of the inference function gives the reference's prediction", "statement": "For every network within the conditions of C52 whose layers are produced by supported templates, the characters of the generated source file, parsed and executed as C, terminate without an access outside an array and leave in `prediction` the tensor that compute_inference returns.", "quantifier": "every network, layer kind, attribute, parameter and input, both data formats", "why_tests_cant": "Composition of rendering, C parsing, C execution, scheduling, buffer sharing and layer arithmetic over all networks and inputs.", "anchors": ["src/acetone_nnet/generator/neural_network.py: generate_function_source_file, compute_inference", "src/acetone_nnet/templates/template_source_file.c.tpl", "src/acetone_nnet/templates/layers/*.c.tpl"]}
{"id": "C56", "title": "ONNX import: layers are linked as the nodes are, and can be ordered", "statement": "When load_onnx returns, the layers it made have distinct indices, a layer lists a producer exactly when the producer lists the layer, and the graph has no cycle; every name recorded as an operand of a layer is resolved to the layer that produces it or to a constant layer for an initializer; nodes that are skipped (Dropout, Flatten, Reshape, Unsqueeze) hand their operand's producer to their consumers. Models for which this is impossible raise.", "quantifier": "every ONNX model (any number of nodes, any names, any sharing of tensors)", "why_tests_cant": "Name resolution depends on the order of nodes and on which tensors are shared; the dictionary of producers is mutated while nodes are read.", "anchors": ["src/acetone_nnet/importers/ONNX_importer/parser_ONNX.py: load_onnx", "src/acetone_nnet/importers/ONNX_importer/create_layer.py: bypass, create_initializer, create_initializer_layer, create_input_layer"]}
{"id": "C57", "title": "ONNX import: axis attributes select the axis the ONNX specification says", "statement": "For Softmax, Concat, Gather, GatherElements and Transpose nodes on tensors of up to four axes, the layer made by the importer works along the axis (and with the indices) that the ONNX operator specification gives for the node's attributes, negative values and defaults included.", "quantifier": "every rank up to four, every dimension, every axis and index value, every opset version, every tensor", "why_tests_cant": "Ranks are padded to four, negative axes count from the end, defaults depend on the opset: all combinations at once.", "anchors": ["src/acetone_nnet/importers/ONNX_importer/create_layer.py: create_softmax, create_concat, create_gather, create_gather_elements, create_transpose"]}
{"id": "C58", "title": "ONNX import: element-wise operators with an initializer compute the node's value", "statement": "A Mul, Sub or Div node one operand of which is an initializer is imported as a layer that returns the product, difference or quotient of its operands, in the node's order.", "quantifier": "every initializer (any shape that broadcasts, any values) on either side, every tensor", "why_tests_cant": "The importer folds initializers into a constant and drops it depending on its values; the values for which it goes wrong are a set of measure zero that random tests never meet, and the operand order matters.", "anchors": ["src/acetone_nnet/importers/ONNX_importer/create_layer.py: create_mul, create_sub, create_div", "src/acetone_nnet/generator/layers/broadcast"]}
{"id": "C59", "title": "ONNX import: windows, strides, paddings, dilations, groups and factors of Conv, pooling and Gemm nodes", "statement": "The layer made for a Conv, MaxPool, AveragePool, GlobalAveragePool or Gemm node computes what the ONNX operator specification gives for its attributes and initializers; nodes with attributes that the layers cannot express raise.", "quantifier": "every attribute value, every kernel, stride, padding, auto_pad mode, dilation, group, every weight and input tensor", "why_tests_cant": "Many attributes with defaults and modes interact; only the first element of several attributes is read.", "anchors": ["src/acetone_nnet/importers/ONNX_importer/create_layer.py: create_conv, create_max_pool, create_average_pool, create_global_average_pool, create_gemm, instantiate_activation_layer", "src/acetone_nnet/generator/layers/convolution/Conv2D.py", "src/acetone_nnet/generator/layers/pooling/Pooling2D.py"]}
{"id": "C60", "title": "ONNX import: the reference interpreter of an imported model returns the value of the ONNX model", "statement": "For every ONNX model with one input and one output that load_onnx accepts, compute_inference on the imported network returns the elements of the tensor that the ONNX specification gives to the model's output.", "quantifier": "every model (any number and kind of supported nodes, any graph), every initializer and every input", "why_tests_cant": "Composition of name resolution, skipped nodes, folded initializers, rank padding, scheduling and layer arithmetic over all models.", "anchors": ["src/acetone_nnet/importers/ONNX_importer/parser_ONNX.py: load_onnx", "src/acetone_nnet/importers/ONNX_importer/create_layer.py", "src/acetone_nnet/generator/neural_network.py: compute_inference"]}
{"id": "C61", "title": "ONNX to C: the text of inference.c computes the value of the ONNX model", "statement": "For every ONNX model with one input and one output that load_onnx accepts, the text of the inference function generated for it, parsed and executed as C, terminates without an access outside an array and leaves in prediction the elements of the tensor that the ONNX specification gives to the model's output.", "quantifier": "every model of supported nodes, every initializer and every input", "why_tests_cant": "This is what a user of the compiler relies on; it composes import, scheduling, buffer sharing, rendering, C parsing and execution over all models and inputs.", "anchors": ["src/acetone_nnet/importers/ONNX_importer/parser_ONNX.py: load_onnx", "src/acetone_nnet/generator/neural_network.py: generate_function_source_file", "src/acetone_nnet/templates/template_source_file.c.tpl"]}
{"id": "C62", "title": "Generated files agree: parameters.c, inference.h and inference.c declare, define and name the same arrays", "statement": "For every network that loads, parameters.c is definitions of constant arrays whose elements are exactly the parameters of the layers, inference.h declares exactly these arrays with the same sizes and a context structure, no name being declared twice; every array that the text of inference.c names is an argument, a local array, a field of the context or one of the declared constant arrays, and the arrays so declared are large enough for the function.", "quantifier": "every network (any number of layers and any graph), every attribute and parameter value representable as a double", "why_tests_cant": "Three files are filled by separate loops over the layers with separate conditions; they must agree for every network, or the program does not compile, does not link or reads outside an array.", "anchors": ["src/acetone_nnet/generator/neural_network.py: generate_parameter_file, generate_function_header_file, generate_function_source_file", "src/acetone_nnet/templates/template_parameter_file.c.tpl", "src/acetone_nnet/templates/template_header_file.c.tpl", "src/acetone_nnet/templates/template_source_file.c.tpl"]}
{"id": "C63", "title": "Whole program: the generated files together compute the reference's prediction", "statement": "For every network within the conditions of C52 whose layers are produced by supported templates, and for every ONNX model within the conditions of C60: starting from the memory that the definitions of parameters.c and the context type of inference.h give (contents of the context unspecified) and an input, the text of inference.c parsed and executed as C terminates without an access outside an array and leaves in prediction the tensor that compute_inference returns, that is the value of the ONNX model.", "quantifier": "every network, layer kind, attribute, parameter and input; every ONNX model of supported nodes", "why_tests_cant": "The property users buy: it composes import, scheduling, three generated files, number printing, C parsing and execution.", "anchors": ["src/acetone_nnet/generator/neural_network.py: generate_c_files, compute_inference", "src/acetone_nnet/templates/template_parameter_file.c.tpl", "src/acetone_nnet/templates/template_header_file.c.tpl", "src/acetone_nnet/templates/template_source_file.c.tpl", "src/acetone_nnet/importers/ONNX_importer/parser_ONNX.py: load_onnx"]}
{"id": "C64", "title": "ONNX to program: a generated program exists for every supported model and computes its value", "statement": "For every ONNX model of supported nodes that load_onnx accepts, the generator has a text for every layer (no layer makes the generation fail), the arrays it declares have the sizes of the model's tensors, and the program made of the generated files terminates without an access outside an array and leaves in prediction the elements of the tensor that the ONNX specification gives to the model's output. No hypothesis is made on what the generator prints.", "quantifier": "every ONNX model of supported nodes, every initializer representable as a double, every input", "why_tests_cant": "Import decides the sizes, activations, paddings and parameters that the templates are instantiated with; that every combination it can produce is one that the templates handle is a statement over all models.", "anchors": ["src/acetone_nnet/importers/ONNX_importer/parser_ONNX.py: load_onnx", "src/acetone_nnet/importers/ONNX_importer/create_layer.py", "src/acetone_nnet/generator/neural_network.py: generate_c_files", "src/acetone_nnet/generator/layers", "src/acetone_nnet/templates"]}
{"id": "C65", "title": "Keras import: layers and links of the imported network are those of the Keras model", "statement": "For every Keras model that the H5 importer accepts: a Sequential model without layers that the importer skips becomes a chain of the layers of the model in order, with a Softmax layer after each layer with a softmax activation; a functional model becomes the network whose layer i is the one made for layer i of the model and whose producers are the layers named as its inputs, in order. Models with Reshape or Dropout layers raise.", "quantifier": "every Keras model, any number of layers, any names and any graph", "why_tests_cant": "Layers are linked by names through a dictionary filled while layers are created, with a counter that skipped layers and added Softmax layers shift; all graphs at once.", "anchors": ["src/acetone_nnet/importers/H5_importer/parser_h5.py: load_keras"]}
{"id": "C66", "title": "Keras import: the reference interpreter of an imported model returns the output of the Keras model", "statement": "For every Keras model (Sequential or functional) of supported layers that the importer accepts, compute_inference on the imported network returns the elements, in Keras's order, of the tensor that the Keras model outputs. Layers whose configuration the importer cannot express raise.", "quantifier": "every Keras model of supported layers, every weight, attribute and input", "why_tests_cant": "Weights, axes, paddings and inputs change layout (channels last to first and back) and strides and windows are read by their first element; all shapes, weights and graphs at once.", "anchors": ["src/acetone_nnet/importers/H5_importer/parser_h5.py: load_keras", "src/acetone_nnet/generator/neural_network.py: compute_inference", "src/acetone_nnet/generator/layers"]}
{"id": "C67", "title": "Keras to program: the program generated for a Keras model computes its output", "statement": "For every Keras model of supported layers that the importer accepts, the generator has a text for every layer, and the program made of the generated files terminates without an access outside an array and leaves in prediction the elements of the output of the Keras model, read and written with the channels last as in Keras.", "quantifier": "every Keras model of supported layers, every weight representable as a double, every input", "why_tests_cant": "Composes import, layout changes, scheduling, buffer sharing, three generated files, number printing, C parsing and execution over all models and inputs.", "anchors": ["src/acetone_nnet/importers/H5_importer/parser_h5.py: load_keras", "src/acetone_nnet/generator/neural_network.py: generate_c_files", "src/acetone_nnet/templates"]}
{"id": "C68", "title": "PyTorch import: the reference interpreter of an imported program returns the program's output", "statement": "For every exported PyTorch program of supported calls, load_pytorch accepts it and compute_inference on the imported network returns the elements of the tensor that the program returns: convolutions with their biases, batch normalisations folded into the convolution before them, activation functions taken over by their producer, sums, concatenations, linear layers, poolings, with dropout and flatten as other names of a tensor. What is silently changed (a call of an unknown operator, the slope of leaky_relu, alpha of add, the operand of an activation function read by another call) is said.", "quantifier": "every exported program of supported calls, any number of nodes, any graph with one input and one output, every parameter and input", "why_tests_cant": "Nodes are matched by substrings of operator names, fused by mutating the producer's layer and resolved by names through a dictionary in which several names denote one layer; all graphs, weights and inputs at once.", "anchors": ["src/acetone_nnet/importers/PYTORCH_importer/parse_pytorch.py: ShapeAwareVisitor, load_pytorch", "src/acetone_nnet/graph/graph_interpretor.py: tri_topo", "src/acetone_nnet/generator/neural_network.py: compute_inference"]}
{"id": "C69", "title": "PyTorch to program: the program generated for an exported PyTorch program computes its output", "statement": "For every exported PyTorch program of supported calls, the generator has a text for every layer of the imported network, and the program made of the generated files terminates without an access outside an array and leaves in prediction the elements of the tensor that the PyTorch program returns.", "quantifier": "every exported program of supported calls, every parameter representable as a double, every input", "why_tests_cant": "Composes import, fusion, scheduling with layers listed several times, buffer sharing, three generated files, number printing, C parsing and execution over all programs and inputs.", "anchors": ["src/acetone_nnet/importers/PYTORCH_importer/parse_pytorch.py: load_pytorch", "src/acetone_nnet/generator/neural_network.py: generate_c_files", "src/acetone_nnet/templates"]}
{"id": "C70", "title": "ONNX export: the exported model computes the network", "statement": "For every network of exportable layers, exporting it to ONNX succeeds and gives a model with one input of the declared dimensions whose value on every input, at the tensor of the last layer, is exactly what compute_inference returns, that tensor being among the outputs of the model; the names of the tensors never collide, the attributes have the types ONNX requires and the dimensions declared for an output are those of its tensor. What is exported otherwise than it computes (padding, axes, slopes, bounds, constants, operators that ONNX does not have) and what raises is said.", "quantifier": "every network of exportable layers, any graph with one input, every weight and input", "why_tests_cant": "Names are built from layer names and indices and read back by other layers; each layer becomes one or two nodes with initializers; equality of the two evaluations concerns all graphs, weights and inputs.", "anchors": ["src/acetone_nnet/exporters/exporter.py: exporter", "src/acetone_nnet/exporters/ONNX_exporter/exporter_onnx.py: onnx_exporter", "src/acetone_nnet/exporters/ONNX_exporter/acetone_to_onnx_layer.py"]}
{"id": "C71", "title": "Optimised program: the program generated after the optimisation pass computes the network as imported", "statement": "For every network of supported layers on which the pass applies safely, optimising it finishes, and the program generated for the optimised layers (convolutions with folded batch normalisations, activation functions taken over by their producer, x*sigmoid(x) as Silu, renumbered layers and arrays declared for them) terminates without an access outside an array and leaves in prediction exactly what compute_inference returns on the network without optimisation.", "quantifier": "every network of supported layers, any graph, every weight and input", "why_tests_cant": "The pass rewrites links, indices, weights, activation functions and saved copies in place, in any number of steps; the equality concerns all graphs, weights and inputs.", "anchors": ["src/acetone_nnet/pattern_matching", "src/acetone_nnet/generator/neural_network.py: compute_inference, generate_c_files", "src/acetone_nnet/templates"]}
{"id": "C72", "title": "A whole run of the generated test program: every sample's result is its reference prediction", "statement": "For every network of the modelled layers, the generated main program, run on any number of samples with MAX_BATCH_SIZE contexts reused from block to block and any interleaving of the parallel calls of inference, ends without an access outside an array, and row s of predictions holds exactly what compute_inference returns for sample s, whatever the other samples and the earlier contents of the contexts; no row beyond the number of samples is written.", "quantifier": "every network of modelled layers, every number of samples and of contexts, every dataset, every schedule of the OpenMP regions, every earlier contents of the contexts", "why_tests_cant": "The contexts are never cleared, so a layer reading an element it did not write would see an earlier sample, and the calls run in parallel: all datasets, numbers of samples and interleavings at once.", "anchors": ["src/acetone_nnet/templates/template_main_file.c.tpl", "src/acetone_nnet/templates/template_global_var_file.c.tpl", "src/acetone_nnet/generator/neural_network.py: compute_inference, generate_c_files"]}
{"id": "C73", "title": "Text of inference.c of a normalised network, from a .nnet file", "statement": "For every .nnet file that describes a network, with a well-formed normalisation: the importer loads it, and the text that the generator writes for inference.c, with the pre-processing before the layers and the post-processing after the copy to prediction, is a definition of the C function inference; called with the file's parameters and the constants of the normalisation in memory it terminates without an access outside an array and leaves in prediction exactly what compute_inference returns with normalisation: the de-normalised value, at the clamped and scaled input, of the function the file describes. The same holds for any channels-first network of modelled layers given a normaliser.", "quantifier": "every .nnet file with any number of layers, sizes, weights and normalisation data; every network of modelled layers with a normaliser; every input; every initial value of the local variables", "why_tests_cant": "Composes the reading of a file of any length, the composition of the source text from sections, C parsing and execution; the order and the sizes of the two added loops matter for every network.", "anchors": ["src/acetone_nnet/importers/NNET_importer/parser_NNET.py", "src/acetone_nnet/importers/NNET_importer/nnet_normalize.py: Normalizer", "src/acetone_nnet/generator/neural_network.py: generate_function_source_file, compute_inference", "src/acetone_nnet/templates/template_source_file.c.tpl", "src/acetone_nnet/templates/normalization"]}
{"id": "C74", "title": "Versions std_gemm_nt, std_gemm_tn and std_gemm_tt of a convolution do not compile", "statement": "A user may choose std_gemm_nt, std_gemm_tn or std_gemm_tt as the version of any Conv2D layer, and code generation succeeds; but the text of the layer in inference.c then names the array output_<path> as a plain identifier (and, for std_gemm_tt, writes to tensor_temp so), which none of the generated files declares, inside or outside of the function: the C compiler rejects the program. With std_gemm_nn the same layer only reads and writes them as fields of the context.", "quantifier": "every size, stride, padding and number of filters, every activation function, index and path of the layer, every producer (another layer's output or a saved copy); every network in whose files the text is placed", "why_tests_cant": "No test compiles these versions; a test would only show it for one network, and that no network's declarations contain the missing names needs all networks.", "anchors": ["src/acetone_nnet/generator/layers/convolution/Conv2DStdGemm.py: Conv2DStdGemm", "src/acetone_nnet/generator/layers/convolution/Conv2DGemm.py: write_gemm_nt, write_gemm_tn, write_gemm_tt", "src/acetone_nnet/templates/layers/Conv/template_Conv_gemm_nt.c.tpl", "src/acetone_nnet/templates/layers/Conv/template_Conv_gemm_tn.c.tpl", "src/acetone_nnet/templates/layers/Conv/template_Conv_gemm_tt.c.tpl", "src/acetone_nnet/templates/layers/Conv/template_im2row.c.tpl"]}
{"id": "C75", "title": "Pooling layers in the version channels_last", "statement": "The version channels_last of MaxPooling2D and AveragePooling2D reads and writes feature maps in channels-last order. With a linear activation function and equal top and left paddings the generated code leaves the maximum of every window inside the image, or the sum of the window divided by pool_size squared, and changes nothing but its output and the temporary array; where the Python reference pads correctly these are its results. With different top and left paddings the code uses pad_left for both and is wrong. At a border the average is not that of the default version, which divides by the number of positions inside the image. With any other activation function the text names o_ptr, which nothing declares: it does not compile.", "quantifier": "every image size, number of channels, pool size, stride and padding, every input, in place or not; every activation function; every network in whose files the text is placed", "why_tests_cant": "The loops clip the window with arithmetic on sizes and paddings, and unit tests use the default version; agreement at every position, and absence of a declaration in any network, need all sizes and all networks.", "anchors": ["src/acetone_nnet/generator/layers/pooling/max_pooling/MaxPooling2DDefault.py", "src/acetone_nnet/generator/layers/pooling/average_pooling/AveragePooling2DDefault.py", "src/acetone_nnet/generator/layers/pooling/Pooling2D.py: forward_path_layer", "src/acetone_nnet/templates/layers/template_Pooling2D_HWC.c.tpl"]}
{"id": "C76", "title": "The table of patches of the indirect gemm", "statement": "For the convolution algorithms indirect_gemm_* the generator does not copy patches: it writes into the parameters file a table of pointers into the previous output, one for each tap and output pixel, and to a zero where the tap falls on the padding. For dilation 1, without padding, or with any padding when every element of the image is used by some window (always so with stride 1), the table points at every position to the element the convolution reads there, in the order of the form (taps as rows, or pixels as rows for nt and tt), so that the product of the weights with the pointed values is the convolution. With a tap on the padding and an element of the image in no window the table is wrong, always: ranks are shifted, it points to image elements in place of zeros. In the form nn the generated code reads the table as a field of the context, which has no such field; in every form the initialiser of the table names the previous output without the context, which nothing declares.", "quantifier": "every image size, number of channels, kernel size, stride, padding, and output size accepted by the constructor; every value of the image, the weights and biases", "why_tests_cant": "The table is built by masking, then renumbering with np.unique, which is right only if no index is missing; tests use a few sizes where it happens to be so, and cannot settle the others.", "anchors": ["src/acetone_nnet/generator/layers/convolution/Conv2DIndirectGemm.py: create_ppatches, generate_inference_code_layer", "src/acetone_nnet/templates/layers/Conv/template_Conv_indirect_gemm.c.tpl", "src/acetone_nnet/templates/layers/Conv/template_Conv_gemm_nn.c.tpl", "src/acetone_nnet/generator/layers/convolution/Conv2DGemm.py: __init__", "src/acetone_nnet/generator/neural_network.py"]}
