# Formal model of onera/acetone in Lean 4

All code paths are relative to `/repo/src/acetone_nnet`; modules are under `lean/Verif`.

ACETONE is a compiler.  It imports a neural network, orders its layers, assigns working buffers to
their outputs, optionally rewrites the network, chooses an implementation for each layer and writes
C code through mustache templates.  The C function `inference` is meant to compute the same function as the
Python interpreter `compute_inference`, which runs the `forward_path_layer` of each layer.  The model
follows that split: programs over a C memory on one side, functions on tensors on the other, and
small specifications (sums, windows, maxima, permutations) between them.

## 1. The model

| directory | what it models |
|---|---|
| `CMem` | the arrays the generated code works on (`ctx->output_k`, `ctx->cst_k`, `ctx->tensor_temp`, `nn_input`, `prediction`, the parameter arrays), each with a size; `load`/`store` take an `Int` index and **fail** (`none`) when it is out of bounds; `for` loops run iteration by iteration.  `CMem/Spec.lean` is the vocabulary of the layer theorems: `Holds m b t` (array `b` begins with the list `t`), `Computes code m b t` (the code does not fail, then `b` holds `t`, and nothing changes except `b` and `tensor_temp`), `tensor3 C H W v` (C-order flattening) |
| `Graph` | `graph/graph_interpretor.py` (`tri_topo`, `parcours_prof_topo`, `assign_liveliness_index`, `assign_cst`), `ir/layer.py` `find_output_str`, the layer loop of `generate_function_source_file`, the interpreter loop of `compute_inference` |
| `Layers` | for each layer the rendered template as a program over `CMem`, and `forward_path_layer` as a function on tensors (`none` where numpy raises) |
| `Opt` | `pattern_matching/` — all four patterns, the matcher loop, renumbering, in-place mutation of layer objects — and the execution of the network it leaves |
| `Gen` | padding, array sizes of the header, the test driver under every OpenMP schedule, file creation with crash points, binary parameter layout, hexadecimal literals, Q-formats, quantisation, the registry and the choice of implementations, importer dispatch, the NNET importer from text to network, normalisation, `acetone_compare`, debug tools |
| `Net` | networks of concrete layers (22 kinds), with their attributes, parameters, reference and code: the composition of everything above into one theorem about `inference` and `compute_inference` (`C52`) |
| `CText` | the characters of the template files (`Templates.lean`, copied by `tools/embed_templates.py`), their tokens, mustache rendering with the values the generators pass, the parser of the C statements obtained (`Lex`, `Syntax`), a semantics of C statements over `CMem` (`Sem`), and for each layer the theorem that the rendered text does what the layer's program in `Layers` does (`C53`) |
| `Onnx` | the ONNX importer: ONNX models (`Proto`), the layer made for each node (`Create`), `load_onnx` (`Load`); the semantics of ONNX operators and models according to the ONNX specification (`Spec`); the proof that an imported model computes the value of the ONNX model (`C56` to `C61`) |
| `Keras` | the Keras/H5 importer: Keras models (`Proto`), `load_keras` and the layer made for each class (`Load`); the semantics of Keras layers with channels last (`Spec`); the proof that an imported model and the generated program compute the output of the Keras model (`C65` to `C67`) |
| `Torch` | the PyTorch importer: exported programs (`Proto`), the visitor of `parse_pytorch.py` (`Load`); the semantics of the aten operators (`Spec`); the proof that an imported program is accepted and computes the output of the PyTorch program (`C68`, `C69`) |
| `Export` | the exporter to ONNX (`Export`), names (`Names`), the nodes of each layer (`Local*`), the networks covered (`Supported`), the proof that the exported model computes the network (`Main`, `C70`) |
| `Props` | the theorems listed in `MANIFEST.json`, their specifications and their concrete instances |

A layer theorem reads: *for all shapes, parameters and inputs the constructor accepts and for all initial
memories whose arrays have at least the announced sizes (with anything in them), the generated program does
not fail — no access outside an array — and leaves exactly the specified tensor in its output array; nothing
else but `tensor_temp` has changed*.  Another theorem gives the same tensor for the Python reference.
Graph-level theorems quantify over all networks, and `C06`/`C36` compose layer theorems into a statement about
the whole `inference` function.

## 2. Method

* Loops: invariants over the number of executed iterations (`CMem/Loops.lean`, `Cell.lean`, `Fresh.lean`,
  `Writes.lean`, `Eval.lean`, `Rows.lean`).
* Addresses: flattening lemmas (`CMem/Addr.lean`) turn index expressions into coordinates.
* Graph: induction along the execution order, with an invariant relating free lists to live tensors
  (`Graph/Live.lean`, `CstAlloc.lean`), then a simulation between the C run and the interpreter (`Refine.lean`).
* Optimiser: every pattern application preserves an invariant of the network and the solution of its equations
  (`Opt/Inv.lean`, `Pass.lean`, `Safe.lean`, `Interp.lean`, `Code.lean`).
* Where the code violates a claim, the violation is itself a theorem (`…_fails_…`), about an input that the code accepts.

Each theorem is accompanied by an `example` or a witness that meets its hypotheses.  `seeded/LOG.jsonl` records the
mutants tried on the model, the theorems that caught them and the theorems tightened because one survived.

## 3. Trusted base

* Lean 4.33.0's kernel and Mathlib's definitions.  Axioms: at most `propext`, `Classical.choice`, `Quot.sound`; the list for
  each theorem is in section 6.  No axioms are added, nothing is evaluated by compiled code.
* The reading of the sources: each definition cites the file and the lines it models and says what it simplifies.
* Mustache rendering: for the layers listed under `C53` the rendering of the template's characters is modelled (variables, sections, inverted sections, lambdas on tokens) and the
  layer's program is proved to be what the text does; the copy of the characters in `CText/Templates.lean` is made by a script (`tools/embed_templates.py --check` compares). For the other layers
  templates are read as the C text they expand to.
* Python and numpy built-ins used by the code (list and dict operations, `sorted`, `str.split`, `re`, `float.hex`,
  numpy reductions and broadcasting) are modelled by definitions written from their documentation.
* C: `int` variables are mathematical integers (no overflow), evaluation is left to right, array accesses are checked.
  `float` and numpy floats are elements of an arbitrary semiring, ordered field, or the reals
  (each theorem says which): **rounding is not modelled**.  NaN and infinities are modelled only where stated
  (`Gen/PyFloat.lean`: compare, debug, normalisation).
* Layer objects: `Layer.__eq__`/`__hash__` are modelled by identity, which they coincide with while indices are distinct.
* OpenMP (`C40`): sequentially consistent interleavings of the atomic steps of the calls.

## 4. What is not modelled

* The JSON importer; only the dispatch (`C49`), the NNET importer
  (`C45`), the ONNX importer (`C56` to `C64`), the Keras importer (`C65` to `C67`) and the PyTorch importer (`C68`, `C69`) are; so is the ONNX exporter (`C70`) except the names of nodes, the element types of initializers (integers and floating-point numbers are distinguished) and the attributes of Resize.  Of the PyTorch importer: `torch.export` (the
  program is given as its fx nodes with declared shapes, `Torch/Proto`), several or channels-last placeholders in the theorems, the rounding of folded weights to float32.  Of the Keras importer: reading the H5 file with keras (the model
  is given as its layers, their configuration, weights and shapes, `Keras/Proto`); Average layers' in-place update of their first operand;
  float32 arithmetic.  Of the ONNX importer: protobuf decoding and `onnx.shape_inference` (declared shapes are hypotheses),
  Resize and LSTM nodes, tensors of more than four axes or with a batch, negative sizes; float32 storage of initializers (exact reals).  The JSON importer cannot succeed as written (`InputLayer` is built with arguments it does not take).
* LSTM, `AddBias`, `Dot`: generation raises for every instance (`AttributeError`, missing template fields, `TypeError`).
* `std_gemm_tn/nt/tt`: their templates use arrays without `ctx->`, so that the C does not compile (the claims on these texts
  would be about programs that do not exist); `gemm_target`, AVX512-VNNI and Orin templates.
* Makefile, `target.c`/`target.h`, dataset text files, logging, printing, the graphical debug output.
* Floating-point rounding, overflow of C `int`, stack size, timing.


## 5. Properties

One row per property of `properties.jsonl`. "Missing" is the part of the English claim that is not proved; when the code violates it, the theorem named `…_fails_…` proves the violation on a concrete network or layer that the code accepts.

| id | property | Lean modules | what is modelled | how it is proved | status, and what is missing |
|---|---|---|---|---|---|
| C01 | Loaded layers are listed in an order that respects the data flow | Graph/Model, Sort; Props/Graph | `tri_topo` on arbitrary layer records, depth-first search with the visited set | induction on the depth-first search: every visited layer is preceded by its producers; constants moved to the front have none | **proved** Every layer graph, any size, any order of the links. |
| C02 | Every acyclic model can be ordered and allocated | same | all assertions and failures of `tri_topo` are `none` | termination by the number of unvisited layers; free-list invariants show no assertion fails | **partial** Fails when a layer is fed by constants only (witness proved); proved otherwise. |
| C03 | No two tensors that are still needed share a working buffer | Graph/Live; Props/Graph | `assign_liveliness_index` with its free list, as executed | invariant: an index is free iff no live tensor holds it; induction along the order | **partial** Fails when a layer takes the same producer twice (witness proved); proved otherwise. |
| C04 | No two multi-consumer tensors that are still needed share a cst buffer | Graph/CstAlloc | `assign_cst` with its free list | same, for the saved copies | **partial** Same restriction as C03. |
| C05 | Every buffer a layer refers to is declared | Graph/Facts | `max_path`, `dict_cst` and declarations | every assigned index is below the running count | **proved** Every graph that tri_topo accepts. |
| C06 | The generated inference function computes the same function as the reference interpreter | Graph/Exec, Refine | the generated layer loop with saved copies and output copy; the interpreter with its input dictionary | simulation: every tensor still needed is in the array the consumer reads; generic in layer code and functions | **partial** Same restriction as C03; forward functions taken as pure. |
| C07 | A layer that is the only consumer of its only producer works in place | Graph/Adjacent, Facts | paths of adjacent layers | the freed index is the next one taken | **proved** Every graph that tri_topo accepts. |
| C08 | Dense: generated code equals the reference | Layers/Linear | `template_Dense.c.tpl`, `Dense.forward_path_layer` | loop invariant = partial sum; numpy product unfolded | **proved** Every size, weights, input and activation, operands in place or not; exact arithmetic in any commutative ring. |
| C09 | MatMul: generated code equals the reference matrix product | Layers/Linear | `template_MatMul.c.tpl`, `MatMul.forward_path_layer` | accumulation in tensor_temp | **partial** Operands with the same number of channels: every size, in place or not. Where the leading dimensions are broadcast, the generated code reads outside the operand: C09_fails_broadcast. |
| C10 | Gemm: generated code equals alpha*op(A)*op(B)+beta*C for the four transposition cases | Layers/Linear | the four Gemm templates, `Gemm.forward_path_layer` | one loop lemma, four index functions | **partial** All four transposition cases, every size, bias of the size of the result; a scalar bias, which the constructor accepts, is read as an array: C10_fails_scalar_bias. |
| C14 | Element-wise broadcast layers: generated code equals the reference | Layers/Broadcast | the broadcast template for the seven operations with `%` indices and constants; numpy broadcasting and in-place operators | pointwise | **proved** Every number of operands, every broadcastable shapes, in place or not; also proved: when the Python reference raises. |
| C15 | Concatenate: generated code equals the reference | Layers/Move | if-chains of the three Concatenate templates | running bounds = prefix sums | **proved** Every axis, number of operands and sizes. |
| C16 | Gather: generated code equals numpy take | Layers/Move | Gather templates with the running `position` | position = flat index | **proved** Every axis and index list. |
| C17 | GatherElements: generated code equals the reference | Layers/Move | GatherElements | pointwise | **proved** Every axis and index tensor. |
| C18 | Tile: generated code equals numpy tile | Layers/Move | Tile | pointwise, `%` | **proved** Every repetition count. |
| C19 | Transpose: generated code equals numpy transpose | Layers/Move | Transpose with its special case | case analysis on the six permutations, addresses inverse to each other | **proved** Every permutation. |
| C20 | Constant padding: generated code equals the reference | Layers/Move | ConstantPad template, `np.pad` | pointwise | **proved** Every size and amount of padding. |
| C21 | Edge, reflect and wrap padding: generated code equals numpy pad | Layers/Move; Props/Pad | C expressions computing the source index (truncated `%`), numpy modes | index functions compared | **partial** Proved for idempotent activations, axes of at least two elements (reflect) and front padding smaller than the axis (wrap); the code violates the property outside these conditions (witnesses proved). |
| C11 | Conv2D 6loops: generated code equals the mathematical convolution and the reference | Layers/Conv | `template_Conv_6loops.c.tpl` with its bound checks, `Conv2D.forward_path_layer` with its padded array | window sums; padding as zero extension | **partial** Code = convolution for every dilation; equality with the Python reference for dilation 1 only, because the reference ignores the dilation rate (witness proved). |
| C12 | Conv2D std_gemm_nn computes the same function as Conv2D 6loops | Layers/Conv | im2col, `gemm_nn`, in-place copy of the input, `Conv2DStdGemm` | im2col leaves the patch matrix; then matrix product; equal to C11's specification | **partial** Equal to 6loops for dilation 1; std_gemm_nn ignores dilation (witness proved). |
| C13 | Pooling: generated code equals the reference | Layers/Pooling | max and average templates, `Pooling2D.forward_path_layer` with its padding | fold over the window | **partial** Code = activated window maximum/average when pad_top = pad_left (the template exchanges them: C13_fails_swapped_pads). Python = window maximum/average with zero top/left padding, or (max) four non-zero paddings and non-negative input; otherwise refuted (C13_fails_negative, C13_fails_average, C13_fails_ignored_padding). The Python reference does not apply the fused activation; the statement applies it to the reference result. |
| C22 | Flatten: generated code equals the reference | Layers/Layout | Flatten code (its own buffer), constant layer | permutation of cells | **partial** Correct when the producer's tensor is in the Flatten layer's own buffer (always so when Flatten is its producer's only consumer); otherwise the generated code reads the wrong array (refuted in general and by a loadable network). |
| C23 | Input and output layout conversions are inverse bijections | Layers/Layout | input and output code for the four layout pairs | bijection of addresses | **proved** Every tensor, both directions. |
| C24 | Reduce: generated code equals numpy reductions | Layers/Reduce | five reductions, all axis sets, four template branches; numpy reductions | fold over the slice; commutation of finite sums | **partial** All five reductions, all axis sets; the excluded cases are exactly those refuted by the C24_fails theorems (axes (0,), no-op or two-axis max/min not in place, two-axis max/min with starting element outside the slice). The reference never applies the fused activation; the statement applies it to the reference result. |
| C25 | Softmax: generated code equals the reference and is a probability distribution | Layers/Norm | both template branches, `Softmax.forward_path_layer` | sums along an axis; reals for the distribution | **partial** Code and reference are softmax along the axis, in place or not; positivity and sum 1 over the reals. Partial: when the tensor has a single non-trivial dimension the axis is ignored (C25_fails_ignored_axis), and with no axis no C is generated (C25_fails_no_axis). |
| C26 | BatchNormalization: generated code equals the reference | Layers/Norm | BatchNormalization template and reference | pointwise | **proved** Any field, any sqrt, any activation, in place or not. |
| C29 | Activation functions: the C expression equals the reference | Layers/Activations | text of the C expression as tokens, a parser of C expressions with C precedence, evaluation over ℝ | parser evaluated symbolically on each text | **proved** The activation text is modelled as tokens read by a parser of C expressions; its value is the Python compute() and the mathematical function. C29_fails_sum_text shows that splicing a sum would be wrong (no layer does it). |
| C27 | Nearest resize: generated code equals the reference and stays in bounds | Layers/Resize | six coordinate modes × four rounding modes, C integer divisions, Python negative indices | floor arithmetic in an ordered field | **partial** Proved for half_pixel/pytorch_half_pixel with the two round modes, asymmetric with floor, align_corners with floor; the other combinations the constructor accepts are refuted by the C27_fails theorems (reads outside the input, different pixel, or text that is not C). |
| C28 | Linear and cubic resize: generated code equals the reference | Layers/Resize | linear and cubic 1D/2D templates and references | interpolation identities by `ring`, clamping lemmas | **partial** Linear: inputs with at least two rows and columns, or a single row/column of two pixels; cubic: every input of more than one pixel; modes half_pixel, pytorch_half_pixel, asymmetric. The rest is refuted. |
| C30 | Winograd F(2x2,3x3) tiles compute the 3x3 convolution | Layers/Direct; Props/Winograd | transformed weights, tile loop with local arrays | bilinear identity by `ring`; loop over tiles writes disjoint cells | **partial** Exact arithmetic in any field of characteristic zero. Proved for even output height and width; for odd ones C30_winograd_run says exactly what is left (stale values) and C30_fails_odd refutes the claim. |
| C50 | Blocked convolution: the direct_block implementation equals the convolution | Layers/Direct, CText/Direct*, CText/Pointers | blocked weight layout, loop nest with clipped kernel bounds; the template, verbatim, with its pointers | sums over clipped windows; simulation between text and program, rules for declarations and pointers | **partial** Also on the text: C50_block_text runs the rendered template. Holds with the binary parameter file; with bin_dataset=False the text parameter file holds the weights in the wrong order (refuted). |
| C51 | Depth-wise convolution: generated code equals the depth-wise convolution and the reference | Layers/Direct, CText/Casts, CText/DepthwiseCode, CText/Depthwise | depth-wise template, grouped reference; the template itself, read after erasing its pointer casts | same; simulation of the parsed text by the program | **partial** The generated text (read after erasing its pointer casts, which change no value) is the depth-wise convolution; the Python reference is not (every filter reads channel 0). |
| C31 | 'same' padding yields ceil(input/stride) outputs | Gen/Padding | `compute_padding` on integers | arithmetic of ceilings | **partial** Proved without dilation for every size, kernel and stride; refuted with dilation (sign error in the dilated kernel size). |
| C32 | Working arrays are large enough | Gen/Sizes | the size computations of the header, with the surviving loop variable | maxima; combined with the allocator theorems | **proved** For every network that loads; without the optimisation patterns (which may renumber layers). |
| C33 | Fusing BatchNormalization into a convolution preserves the function | Opt/Fold; Props/Fusion | the folding loop on weights and biases | field algebra on the convolution sum | **proved** Folding identity over any field and any sqrt, for the reference convolution and for the generated code; that the rewriting of the network applies it correctly is C35. |
| C34 | Fusing Sigmoid and Multiply into SiLU preserves the function | Opt | rewriting of Sigmoid/Multiply | solution of the network's equations carried over | **partial** The function is preserved for every real tensor and both argument orders; but for Multiply(x, Sigmoid(x)) with one consumer the generated C of the optimised network is wrong (C34_fails_buffer). |
| C35 | Fusing an activation layer into its producer preserves the computed network | Opt/Model … Pass | the whole matcher loop, mutation of shared layer objects | invariant of the network preserved by each application; termination by a measure | **partial** Whole pass (all registered patterns, to its end), every network. Restriction: no activation layer follows a layer that ignores its activation function (refuted otherwise: C35_fails_flatten, C35_fails_first). |
| C36 | Layer indices stay unique and dense after optimisation | Opt/Renumber, Interp, Code, Run | renumbering of indices and `dict_cst`; interpreter and generated code of the resulting network | order-preserving renumbering; counterexamples | **partial** Proved for networks in which merged layers have consecutive indices and multi-consumer layers run after all lower-numbered ones; refuted otherwise (two layers with the same index; a saved copy lost, giving wrong C output). |
| C37 | The implementation chosen for each layer follows the documented priority | Gen/Registry | selection, versioning, dict semantics | induction on the layers and on the dict items | **proved** For every layer list with distinct indices (which C36 says loading preserves, except in its refuted case) and every request dictionary; with a duplicated index the claim fails (C37_fails_duplicate). |
| C38 | Implementation registry: lookups return what was registered, never overwritten | Gen/Registry | factories with sorted dict | induction on the registration history | **proved** Every history of registrations. |
| C39 | Code generation never overwrites existing files | Gen/Files | directory contents, open modes, crash after any generation function | induction on the functions | **partial** Never overwrites an announced file, at any crash point; creates exactly the announced files without binary data. Refuted with bin_dataset: the binary files are not announced, so they are overwritten. |
| C40 | The generated test driver runs each dataset sample exactly once, in order | Gen/Driver | blocked loop, one context per iteration, every interleaving of atomic steps | commutation: iterations touch disjoint data | **proved** Every number of samples and batch size, every interleaving of the OpenMP threads. |
| C41 | Binary parameter blocks are aligned and do not overlap | Gen/Files | `align_up` on Python integers (two's complement), block offsets | bit arithmetic, induction on blocks | **proved** Every sequence of block sizes, every power of two. |
| C42 | Hexadecimal constants written in the C code denote the exact model parameter | Gen/Text | `float.hex`, `str.replace`, value of the literal | digits removed are zeros | **proved** Every finite double; an infinite parameter yields text that is no C constant (C42_fails_inf). |
| C43 | Q-format parsing accepts exactly Qm.n and round-trips | Gen/Text | the regular expression, with Unicode digits | exact accepted language | **partial** Exact set of accepted strings characterised: besides Qm.n, a trailing newline and non-ASCII decimal digits are accepted (refuted). |
| C49 | Model format dispatch | Gen/Text | `parser` on texts and paths | case analysis | **partial** Every path: documented extensions reach their importers; the test is a substring search in the last four characters, so other paths are accepted too (refuted). |
| C44 | Quantised shift activation: generated code equals the reference shift | Gen/Quantize | numpy shift, cast, C text parsed by the C parser, parameter rounding | floor division; modular arithmetic | **partial** Same integer in C and Python for every accumulator, format, width and wrapped activation (shift counts below the width of the promoted type). The one-unit bound is proved when the shift is not clamped and the result fits; refuted otherwise. |
| C45 | NNET files are loaded as the network they describe | Gen/Nnet | the parser from text lines to layers, execution of the network | induction on lines and layers; C06's simulation | **proved** Every file of the format, every network size; from the text of the file to the generated code. |
| C46 | NNET normalisation: generated code equals the reference | Gen/Normalize, CText/Normalize* | Python and C normalisation, C array initialisers; the two templates, verbatim, with the constants in arrays of the memory | pointwise; simulation between text and program, the arrays of the constants being an invariant of the loop | **proved** Also on the rendered texts (C46_pre_text, C46_post_text). Every input without NaN and every description with min <= max; C46_fails_* show that both hypotheses are needed. |
| C47 | acetone_compare reports equality only for files that agree | Gen/Compare, PyFloat | the comparison with NaN and infinities, file loops | induction on lines and values | **partial** Exact characterisation of the verdict (iff) for every pair of files; the claim itself is refuted for truncated files, longer second lines and one line too many; it holds for complete files. |
| C48 | Debug outputs are matched to layers in index order | Gen/Debug | text of the debug file, parsing, dict ordering, comparison | induction on records; round trip print/parse | **partial** reorder_outputs and extract_outputs_c proved for every list of records; extract_outputs_python only for one-digit indices (it compares the last character), refuted otherwise. |
| C52 | End to end: the generated function returns the prediction of the Python reference | Net/Model, Ops, Ops2, Run, Examples | 22 layer kinds with attributes, reference and code; compute_inference with layout changes; the header's array sizes; the generated function | each layer's theorem turned into one contract (`op_correct`), then the simulation of C06 with C32 for the sizes | **partial** Composition of C06, C32 and the layer theorems, all layer kinds modelled, any network size. Partial: inherits the exclusions of the layer claims (Op.OK, Op.InputsOK), exact arithmetic in an ordered field, no debug, normalisation or quantisation. C52_memory_exists: the memory hypothesis can always be met. |
| C53 | Template text: what the rendered C text does is what the layer's program does | CText/* | characters of the template files, lexer with mustache tags, hash values as tokens, parser of C statements and expressions, big-step semantics on environments and `CMem` memories | parsing by kernel computation with symbolic numbers; simulation relation `Sim` between statements and programs, one rule per construct | **partial** For each layer kind listed: the characters of the template file (copied by tools/embed_templates.py), tokenised, mustache-rendered and parsed inside Lean, then run by a C semantics. Partial: templates not listed are still read by hand; chevron's rendering is modelled for the tags these templates use. |
| C54 | Source file: the text of the inference function does what the inference program does | CText/SourceCode, ActLayer, Emits, Compiles, Source | text of the source file template, flags computed from the layers, hash of each layer, declarations of locals | statement texts compose (`IsBody.append`); every variable of a layer is among the flagged declarations; no identifier twice | **partial** Every network whose layers are produced by the templates tied in C53 (relation Emits). Partial: layers produced by the templates not tied (winograd, direct_block, depth-wise, indirect gemm, normalisation, debug printing) are outside Emits. |
| C55 | Text end to end: running the text of the inference function gives the reference's prediction | CText/Source, SourceExamples | as C54 and C52 | C54 after C52 | **partial** C54 composed with C52; inherits their exclusions. SourceExamples shows a residual network meeting all hypotheses. |
| C56 | ONNX import: layers are linked as the nodes are, and can be ordered | Onnx/Create, Load, Wire, Inv, Link, Import, Wiring | `load_onnx` and every `create_*` function but Resize and LSTM; dictionaries of producers and operands | invariant of the loop on the nodes (which tensor each name denotes, which layer holds it), invariant of the linking loop | **partial** Links and resolution for every model; acyclicity and ordering for models that evaluate under the ONNX specification. Partial: acyclicity is stated for valid models of supported nodes. Also proved: what raises (shared operand of a skipped node, Constant outputs as operands, Tile and Reduce operands whose name has more than one character). |
| C57 | ONNX import: axis attributes select the axis the ONNX specification says | Onnx/LocalLin, LocalMove, OpsProps | axis and index resolution | row-major indices of any rank up to four cut to the three axes of the layers | **partial** Refuted for the default axis of Softmax before opset 13 on matrices (C57_softmax_default_wrong: the layer returns ones). With an axis, before opset 13: right where the axes after it have one element, otherwise the layer normalises along one axis only (C57_softmax_before13_wrong). |
| C58 | ONNX import: element-wise operators with an initializer compute the node's value | Onnx/LocalBin, LocalConst | the folding of initializers and the test that drops the constant | case analysis on the values of the constant; numpy broadcasting | **partial** What the layer returns, in all cases: Mul is right unless an element of the initializer is 1 (then the initializer is ignored); Sub adds the initializer, Div multiplies by it: the claim is refuted for them. |
| C59 | ONNX import: windows, strides, paddings, dilations, groups and factors of Conv, pooling and Gemm nodes | Onnx/LocalWin, LocalLin, OpsProps | attributes of Conv, pooling, Gemm, Clip; `compute_padding` | window positions of the specification against padded slices of the reference | **partial** Right for equal strides, no dilation, one group, and for pooling square kernels without padding. C59_strides, C59_dilations, C59_pool_kernel, C59_pool_dilations: other values are silently replaced by those of the first axis or ignored; groups, missing biases and scalar bounds raise. |
| C60 | ONNX import: the reference interpreter of an imported model returns the value of the ONNX model | Onnx/Spec, Supported, NodeOk, Import, Examples | semantics of ONNX operators and models written from the ONNX documentation (Spec.lean); reference interpreter | every layer holds the value of a tensor of the model (`layer_value`), then the interpreter loop of C06 | **partial** Every model of supported nodes (Supported lists the restrictions per operator, those of C57 to C59), any number of nodes and any graph with one input and one output. Not modelled: Resize, LSTM, Max, Min, Mean, Tile, Reduce, LRN, Shape nodes, more than four axes, batches. |
| C61 | ONNX to C: the text of inference.c computes the value of the ONNX model | Onnx/Generated, GeneratedExamples | as C60 and C55 | C60 after C55 | **partial** C60 composed with C55; inherits their exclusions. The sizes of the arrays, the number of operands and the in-place conditions are derived from the model (import_generable); the remaining conditions on the imported layers are CodeOk, decidable once the network is known. No optimisation, quantisation or debug. |
| C62 | Generated files agree: parameters.c, inference.h and inference.c declare, define and name the same arrays | CText/FileTemplates, Files, Header, Arrays, Linked, Project, Unique | texts of parameters.c, inference.h and global_vars.c from their templates; the loop that collects `cst` sizes; which arrays each layer's text names | rendering by kernel computation and induction on the layers; texts are read back without ambiguity; every named array is one of the declared ones | **partial** Every network that loads; the three texts are rendered from the template files. Partial: naming (C62_linked) is for the layers of C54 and when no parameter array is empty: an empty array is not declared although the text of its layer names it (C62_empty_not_declared). #include, #define lines and the alignment attributes are tokens without meaning here. |
| C63 | Whole program: the generated files together compute the reference's prediction | CText/Project, ProjectExamples; Onnx/Generated | as C62 and C55; memory given by definitions and declarations | the memory so defined is one on which C55 applies; composed with C60 | **partial** C55 from the memory that the generated definitions give; composed with C60. Inherits the exclusions of C52, C54, C60; parameters are doubles (exactly printed, C42). |
| C64 | ONNX to program: a generated program exists for every supported model and computes its value | Onnx/Sizes, Program, ProgramExamples | what each create_* function leaves in a layer (Origin), as C63 | per constructor: sizes equal those of the specified tensor, parameters of the expected lengths, text derivable in Emits; then C63 | **partial** Every layer the importer makes for a supported node has a text (import_texts); the program made of the generated files computes the model's value. Partial: the operators of Supported; exact arithmetic; Clip nodes have both bounds (an omitted bound is an infinity, which Python prints as inf and C does not know); no producer is used twice by one layer (SimpleInputs); CodeOk. |
| C65 | Keras import: layers and links of the imported network are those of the Keras model | Keras/Proto, Load, Wire, Wiring, Defects | `load_keras` and the layer made for each class; dictionaries of names; links | invariant of the loop on the layers (index, name, links so far) | **partial** Links and layers for every model that the importer accepts. Partial: for functional models a softmax activation is only right on the last layer: C65_softmax_bypassed exhibits a model whose softmax is bypassed (later layers read the layer before the added Softmax). |
| C66 | Keras import: the reference interpreter of an imported model returns the output of the Keras model | Keras/Spec, Values, Local, Local2, Supported, Import, Examples, Defects | semantics of Keras layers and models written from the Keras documentation (Spec.lean, channels last); layers of the importer; reference interpreter with its layout changes | per class: the layer returns the transposed value; induction on the layers; then the interpreter loop of C06 | **partial** Every model of supported layers (Supported and Valid list the restrictions: Dense on vectors, Conv2D with equal strides and no dilation, square pooling windows without padding, ...), any number of layers and any graph. Configurations outside are shown to raise or to be ignored silently (groups, second stride, axis of BatchNormalization). Average is not covered; exact real arithmetic. |
| C67 | Keras to program: the program generated for a Keras model computes its output | Keras/Coded, Program, Examples | as C66 and C63 | sizes and texts per class, links to the conditions of C63, then C66 after C63 | **partial** C66 composed with C63, with a text shown to exist for every layer and the sizes derived from the model. Partial: inherits the restrictions of C66 and C63; functional models: no layer reads the same layer twice, Flatten is the only consumer of its producer, the output is not a Maximum or Minimum. |
| C68 | PyTorch import: the reference interpreter of an imported program returns the program's output | Torch/Proto … Import, Examples, Defects | the visitor of `parse_pytorch.py`: substring tests on operator names, `layerdic`, fusion by mutation of the producer's layer, the list with repetitions given to `tri_topo`; semantics of the aten operators written from the PyTorch documentation (Spec.lean) | invariant of the visit (which tensor each name denotes, which layer holds it, which layers may still absorb an activation), `tri_topo` on a list with repetitions equals `tri_topo` on the layers, then the interpreter loop of C06 | **partial** Every program of supported calls (Supported and Valid list the restrictions: batch of one, equal strides, no dilation, one group, square kernels, batch_norm after a convolution, activation functions whose operand no other call reads), any number of nodes and any graph; acceptance by the importer is part of the conclusion. Outside: what raises and what is silently changed is proved (unknown operators dropped, leaky_relu as relu, alpha ignored, operands of fused calls overwritten). Exact real arithmetic. |
| C69 | PyTorch to program: the program generated for an exported PyTorch program computes its output | Torch/Program, Examples | as C68 and C63 | C68 after C63 | **partial** C68 composed with C63, with a text shown to exist for every layer and the sizes derived from the program. Partial: inherits the restrictions of C68 and C63; no sum or concatenation reads a tensor twice or the result of a dropout or flatten; all values are greater than -INFINITY. |
| C70 | ONNX export: the exported model computes the network | Export/Export … Main, Typed, Examples, Defects | `exporter`, `onnx_exporter` and every function of `acetone_to_onnx_layer.py`: nodes, initializers, attributes, declared inputs and outputs, names; semantics of ONNX as in C57 | tensor names determine the layer's index (a scan for an underscore followed by a digit); node by node: the exported node computes the layer before its activation function, the second node the function; induction over the order of execution | **partial** Channels-first networks with one input, of Flatten, ActivationLayer, Gemm, Conv (dilation 1, equal top and right padding), unpadded pooling, BatchNormalization, Softmax on the last axis, Transpose, Pad, Add/Sub/Mul/Div with one or two operands, Concat. Partial: Gather, GatherElements, Tile, Reduce, Resize, Maximum and Minimum are modelled but not in the theorem; the excluded cases of the covered layers are refuted by the other theorems. |
| C71 | Optimised program: the program generated after the optimisation pass computes the network as imported | OptNet/*, Opt/* | the pass of C33-C36 on layers with concrete weights and activation functions; the program and the arrays generated from the optimised layers | the network of C52 is an instance of the abstract semantics of C35 (`sem_ok`: folding, absorption and Silu are equalities on tensors); an invariant of the pass keeps the attributes (`Follow`), then each optimised layer is correct by `op_correct` | **partial** C33-C36 with the layers of C52: folded weights, activation functions and renumbered parameters are concrete, the arrays have the sizes declared for the optimised layers. Partial: channels-first, exact real arithmetic, the layers of C52, and the conditions Optimisable: no activation layer after a layer that does not apply its function (refuted otherwise: C35_fails_flatten), indices in the order of the layers (refuted otherwise: C36_fails_collision, C36_fails_dict, C34_fails_buffer). |
| C72 | A whole run of the generated test program: every sample's result is its reference prediction | Gen/DriverRows, Net/Keeps, Net/TestRun | the blocked parallel loop of the main file over the layers' code of C52, on contexts with arbitrary contents | every operation of a layer's code keeps sizes and constant arrays (`Keeps`, by a syntax-directed tactic), so the steps are framed and `C40_driver_rows` reduces the run to one call; `C52_network_partial` on an arbitrary context gives its result | **partial** C40 with the programs of C52: that no layer's code changes a size or a constant array is proved for every operation, and the result of a call does not depend on the contents of its context. C72_any_steps takes the steps of a call at any granularity. Partial: the layers, the data formats and the exact real arithmetic of C52, sequentially consistent memory, and the array predictions (reading the dataset from a file and printing the rows are not modelled). |
| C73 | Text of inference.c of a normalised network, from a .nnet file | CText/Transfer, CText/NormalSource, CText/NnetText, CText/NormalFiles, CText/NnetExamples, Net/RefLength | the source template with the texts of the normaliser; the layers that the NNET importer makes as operations with the texts of their templates; `global_vars.c` and the declarations of its constants in `inference.h` as texts, the memory being described by the definitions | the text is instantiated symbolically and parsed (C54); the run of each part is transferred to the globals that also contain the constants (`run_transfer`: a run depends only on the arrays it names), then C46 and C45 (or C55) compose; for `.nnet` files the generator's program is shown equal to that of C45 (`nnet_inference`); a template that does not mention a key renders alike with it (`inst_extra`), which separates the declarations of the normalisation from the rest of the header | **partial** C73_nnet_program: every .nnet file of a description, from the text of the file to the texts of parameters.c, global_vars.c, inference.h and inference.c, and their execution (C73_nnet_text: inference.c alone). C73_normalised_text: every channels-first network of C55. Partial: exact real arithmetic; for networks other than .nnet files the constants are assumed in memory; the decimal texts that Python prints for the constants are any texts that the C compiler reads back as their values; minima do not exceed maxima; compute_inference for channels-last inputs. |
| C74 | Versions std_gemm_nt, std_gemm_tn and std_gemm_tt of a convolution do not compile | CText/ConvTemplates, CText/ConvForms, CText/ConvFormsExample | the templates of the transposed forms and of im2row, verbatim; the keys passed to them; the header of a network and the local declarations (C54, C62) | the arrays named by the text are computed by the kernel for all parameters; every declaration of a network is compared with the name (uniqueness of the reading of the header, C62) | **proved** The text of the layer, instantiated from the template files, parses as one C statement; the identifiers it names and those that the header of any network and the declarations in the function give are compared. That an undeclared identifier is rejected by a C compiler is not modelled. |
| C75 | Pooling layers in the version channels_last | Layers/PoolHWC, Props/PoolHWC, CText/Casts, CText/PoolTextCode, CText/PoolText, CText/PoolForms, CText/PoolFormsExample | template_Pooling2D_HWC for a linear activation, read after erasing its cast and adding restrict to its pointer declarations, and its program (clipped window loops over pointers into the temporary array); for the activation, the rendered tokens of the template | row-by-row update of a known row: running maximum by extremality, sums by reindexing the clipped ranges on the window; Python: sums over the zero-padded slices; the tokens are computed by the kernel for all parameters | **partial** Partial: the positive theorems need pad_top = pad_left (the text does not use pad_top; C75_fails_top_padding) and, against Python, the paddings on which the reference pads as the code does. The text is read after erasing its cast to float and adding restrict to its pointer declarations, which change no value; the claim about the activation function is about the tokens of the text itself. float arithmetic is exact. |
| C76 | The table of patches of the indirect gemm | Layers/Indirect, Props/Indirect, CText/IndirectForms | `create_ppatches`: the index grids, the masked indices, `np.unique(return_inverse)` as the rank among the distinct values with nan last, the transposition for `nt` and `tt`; for the form nn, the tokens of the rendered template; the tokens of the initialiser of the table; not the execution of the gemm over it | the masked table is the image of the specification under the strictly increasing index of the padded image; if every element is used the distinct values are that image (permutation), so ranks are the original indices, and conversely a missing value leaves the rank of nan below the size of the image; the transposition of a matrix given by rows | **partial** Partial: with padding the positive theorems need every element of the image in some window; C76_fails_unused is an accepted layer without it and a wrong table. C76_table_iff: where a tap falls on the padding, this condition is also necessary. The text of the table is modelled by its tokens, and C76_product_partial is about the sum over the pointed values, not about the text of the gemm template. |

## 6. Axioms used

Output of `#print axioms` on every theorem of `MANIFEST.json` (regenerated for this commit):

* **Classical.choice, Quot.sound, propext**: `CText.C46_post_text`, `CText.C46_pre_text`, `CText.C50_block_text`, `CText.C51_depthwise_text`, `CText.C54_activation_compute`, `CText.C54_source_renders`, `CText.C55_text_end_to_end_partial`, `CText.C62_files`, `CText.C62_linked`, `CText.C62_memory`, `CText.C63_example`, `CText.C63_program_partial`, `CText.C73_constants_exist`, `CText.C73_example`, `CText.C73_globals`, `CText.C73_memory_exists`, `CText.C73_nnet_example`, `CText.C73_nnet_program`, `CText.C73_nnet_text`, `CText.C73_normalised_text_partial`, `CText.C73_program_example`, `CText.C73_program_memory`, `CText.C73_source_renders`, `CText.C74_example`, `CText.C75_avg_text_partial`, `CText.C75_example`, `CText.C75_max_text_partial`, `CText.C76_example`, `CText.Emits.clean`, `CText.Emits.renders`, `CText.activation_renders`, `CText.avgPool_renders`, `CText.batchNorm_renders`, `CText.broadcast_renders`, `CText.concat_renders`, `CText.constantPad_renders`, `CText.constant_renders`, `CText.conv6_renders`, `CText.cubic1_renders`, `CText.cubic2_renders`, `CText.dense_renders`, `CText.direct_renders`, `CText.edgePad_renders`, `CText.flatten_renders`, `CText.gatherElements_renders`, `CText.gather_renders`, `CText.gemmNN_renders`, `CText.gemmNT_renders`, `CText.gemmTN_renders`, `CText.gemmTT_renders`, `CText.input_renders`, `CText.linear1_renders`, `CText.linear2_isC_iff`, `CText.linear2_renders`, `CText.matmul_renders`, `CText.maxPool_renders`, `CText.nearest_renders`, `CText.output_renders`, `CText.post_renders`, `CText.pre_renders`, `CText.reduce_renders`, `CText.reflectPad_renders`, `CText.resizeCubic_renders`, `CText.resizeLinear_renders`, `CText.softmax1_renders`, `CText.softmax3_renders`, `CText.stdGemm_renders`, `CText.tile_renders`, `CText.transpose_renders`, `CText.wrapPad_renders`, `Export.C70_add_constant`, `Export.C70_add_three`, `Export.C70_attributes_typed`, `Export.C70_average_not_onnx`, `Export.C70_clip_bounds_dropped`, `Export.C70_constant_raises`, `Export.C70_constant_squeezed`, `Export.C70_conv_pads_dims`, `Export.C70_conv_pads_swapped`, `Export.C70_dense_not_onnx`, `Export.C70_example`, `Export.C70_export_correct_partial`, `Export.C70_factor_one`, `Export.C70_fused_silu_not_onnx`, `Export.C70_gather_indices_float`, `Export.C70_group_dropped`, `Export.C70_linear_layer_dropped`, `Export.C70_linear_layer_undefined`, `Export.C70_matmul_raises`, `Export.C70_output_declared`, `Export.C70_output_rank`, `Export.C70_pad_not_imported`, `Export.C70_pool_activation`, `Export.C70_pool_pads_swapped`, `Export.C70_silu_not_onnx`, `Export.C70_slope_dropped`, `Export.C70_softmax_axis_dropped`, `Export.C70_tile_repeats_float`, `Export.C70_unknown_format`, `Gen.C31_conv_accepted`, `Gen.C31_same_partial`, `Gen.C31_valid`, `Gen.C32_arrays_large_enough`, `Gen.C32_path_size_attained`, `Gen.C37_default_known`, `Gen.C37_documented_known`, `Gen.C37_fails_duplicate`, `Gen.C37_selection`, `Gen.C37_versioning`, `Gen.C38_accepted`, `Gen.C38_list`, `Gen.C38_lookup`, `Gen.C38_refused_iff`, `Gen.C39_creates`, `Gen.C39_fails_documented`, `Gen.C39_no_overwrite`, `Gen.C39_twice`, `Gen.C40_driver`, `Gen.C40_driver_rows`, `Gen.C41_align_up`, `Gen.C41_blocks`, `Gen.C41_disjoint`, `Gen.C42_exact`, `Gen.C42_fails_inf`, `Gen.C42_shortened`, `Gen.C43_fails_newline`, `Gen.C43_parse_partial`, `Gen.C43_roundtrip`, `Gen.C44_agree`, `Gen.C44_fails_clamped`, `Gen.C44_fails_saturation`, `Gen.C44_fails_silent`, `Gen.C44_fails_undefined`, `Gen.C44_matmul`, `Gen.C44_no_overflow`, `Gen.C44_parameters`, `Gen.C44_precision_partial`, `Gen.C44_reference`, `Gen.C44_rounding`, `Gen.C44_text`, `Gen.C45_code`, `Gen.C45_loads`, `Gen.C46_fails_nan`, `Gen.C46_fails_unordered`, `Gen.C46_input_overwritten`, `Gen.C46_network`, `Gen.C46_post`, `Gen.C46_pre`, `Gen.C47_complete_files`, `Gen.C47_fails`, `Gen.C47_fails_extra_line`, `Gen.C47_fails_longer_line`, `Gen.C47_fails_nan_hidden`, `Gen.C47_fails_truncated`, `Gen.C47_floats`, `Gen.C47_reported_max`, `Gen.C47_verdict_partial`, `Gen.C48_c`, `Gen.C48_compare`, `Gen.C48_python_any`, `Gen.C48_python_partial`, `Gen.C48_reorder`, `Gen.C48_reorder_any`, `Gen.C48_targets`, `Gen.C48_targets_keras`, `Gen.C49_documented`, `Gen.C49_fails`, `Gen.C49_text`, `Gen.nnet_memory_exists`, `Graph.C01_cyclic_rejected`, `Graph.C01_order_respects_dataflow`, `Graph.C02_acyclic_ordered_partial`, `Graph.C03_no_shared_path_partial`, `Graph.C04_cst_iff_multi_consumer`, `Graph.C04_no_shared_cst_partial`, `Graph.C05_buffers_declared`, `Graph.C06_inference_refines_interpreter_partial`, `Graph.C07_in_place`, `Keras.C65_functional`, `Keras.C65_functional_skipped_raises`, `Keras.C65_sequential`, `Keras.C65_sequential_skipped_raises`, `Keras.C65_softmax_bypassed`, `Keras.C66_bn_axis_ignored`, `Keras.C66_concat_default_raises`, `Keras.C66_example`, `Keras.C66_groups_ignored`, `Keras.C66_import_correct_partial`, `Keras.C66_no_bias_raises`, `Keras.C66_partial_bn_raises`, `Keras.C66_second_stride_ignored`, `Keras.C67_example`, `Keras.C67_functional_example`, `Keras.C67_functional_partial`, `Keras.C67_keras_program_partial`, `Keras.C67_sequential_partial`, `Layers.C08_dense`, `Layers.C08_dense_code`, `Layers.C08_dense_forward`, `Layers.C09_fails_broadcast`, `Layers.C09_matmul_code`, `Layers.C09_matmul_partial`, `Layers.C10_fails_scalar_bias`, `Layers.C10_gemm_partial`, `Layers.C11_conv6_code`, `Layers.C11_conv6_partial`, `Layers.C11_conv_forward_partial`, `Layers.C11_fails_dilation`, `Layers.C12_fails_dilation`, `Layers.C12_std_gemm_code`, `Layers.C12_std_gemm_forward`, `Layers.C12_std_gemm_partial`, `Layers.C13_avg_code_partial`, `Layers.C13_avg_forward_partial`, `Layers.C13_avg_partial`, `Layers.C13_fails_average`, `Layers.C13_fails_negative`, `Layers.C13_fails_swapped_pads`, `Layers.C13_max_code_partial`, `Layers.C13_max_forward_partial`, `Layers.C13_max_partial`, `Layers.C14_broadcast`, `Layers.C14_broadcast_code`, `Layers.C14_broadcast_forward`, `Layers.C14_forward_raises_small_first`, `Layers.C15_concatenate`, `Layers.C15_placement`, `Layers.C16_gather`, `Layers.C17_gather_elements`, `Layers.C18_tile`, `Layers.C19_transpose`, `Layers.C19_transpose_bijective`, `Layers.C20_constant_pad`, `Layers.C21_edge_pad_partial`, `Layers.C21_fails_activation_twice`, `Layers.C21_reflect_pad_partial`, `Layers.C21_wrap_pad_partial`, `Layers.C22_constant`, `Layers.C22_fails_other_buffer`, `Layers.C22_flatten_partial`, `Layers.C22_in_place`, `Layers.C23_each_cell_once`, `Layers.C23_input`, `Layers.C23_output`, `Layers.C23_roundtrip`, `Layers.C23_vector`, `Layers.C24_fails_compare_elsewhere`, `Layers.C24_fails_start`, `Layers.C24_fails_start_out_of_bounds`, `Layers.C24_reduce_partial`, `Layers.C24_sum_prod_mean_partial`, `Layers.C25_distribution`, `Layers.C25_fails_ignored_axis`, `Layers.C25_forward`, `Layers.C25_softmax_partial`, `Layers.C26_batch_norm`, `Layers.C26_centre`, `Layers.C27_fails_align_corners`, `Layers.C27_fails_asymmetric`, `Layers.C27_fails_floor`, `Layers.C27_nearest_partial`, `Layers.C27_round_nearest`, `Layers.C28_cubic_constant`, `Layers.C28_cubic_partial`, `Layers.C28_fails_align_corners`, `Layers.C28_fails_linear_row`, `Layers.C28_fails_one_pixel`, `Layers.C28_linear1_partial`, `Layers.C28_linear_constant`, `Layers.C28_linear_partial`, `Layers.C29_clip_check_needed`, `Layers.C29_fails_sum_text`, `Layers.C29_layer`, `Layers.C29_reference`, `Layers.C29_text`, `Layers.C29_text_quotient`, `Layers.C30_fails_odd`, `Layers.C30_tile`, `Layers.C30_winograd_partial`, `Layers.C30_winograd_run`, `Layers.C50_binary_parameters`, `Layers.C50_block`, `Layers.C50_block_code`, `Layers.C50_fails_text_parameters`, `Layers.C51_depthwise_code`, `Layers.C51_fails_reference`, `Layers.C51_reference_groups`, `Layers.C75_avg_code_partial`, `Layers.C75_avg_forward_partial`, `Layers.C75_avg_partial`, `Layers.C75_avg_versions_agree_iff`, `Layers.C75_fails_top_padding`, `Layers.C75_max_code_partial`, `Layers.C75_max_partial`, `Layers.C75_versions_differ`, `Layers.C76_entry_partial`, `Layers.C76_fails_unused`, `Layers.C76_product_partial`, `Layers.C76_table_iff`, `Layers.C76_table_partial`, `Layers.C76_table_stride_one`, `Layers.C76_table_unpadded`, `Layers.C76_transposed_partial`, `Net.C52_memory_exists`, `Net.C52_network_partial`, `Net.C52_not_channels_last_rank`, `Net.C72_any_steps_partial`, `Net.C72_example`, `Net.C72_test_run_partial`, `Net.op_correct`, `Onnx.C56_bypass_shared_raises`, `Onnx.C56_constant_example`, `Onnx.C56_constant_operand_raises`, `Onnx.C56_constants`, `Onnx.C56_input_layer`, `Onnx.C56_links`, `Onnx.C56_names_resolved`, `Onnx.C56_ordered`, `Onnx.C56_reduce_example`, `Onnx.C56_shared_example`, `Onnx.C56_tile_reduce_names`, `Onnx.C57_axis`, `Onnx.C57_concat_partial`, `Onnx.C57_gather`, `Onnx.C57_gather_accepts`, `Onnx.C57_gather_default_raises`, `Onnx.C57_gather_elements`, `Onnx.C57_reduce`, `Onnx.C57_reduce_example`, `Onnx.C57_reduce_opset`, `Onnx.C57_softmax_before13_example`, `Onnx.C57_softmax_before13_partial`, `Onnx.C57_softmax_before13_wrong`, `Onnx.C57_softmax_default_ones`, `Onnx.C57_softmax_default_wrong`, `Onnx.C57_softmax_example`, `Onnx.C57_softmax_partial`, `Onnx.C57_symbolic_batch`, `Onnx.C57_tile`, `Onnx.C57_tile_example`, `Onnx.C57_transpose`, `Onnx.C57_transpose_rank_raises`, `Onnx.C58_div_multiplies`, `Onnx.C58_max_example`, `Onnx.C58_max_min`, `Onnx.C58_mul_ignores`, `Onnx.C58_mul_partial`, `Onnx.C58_sub_adds`, `Onnx.C58_sub_example`, `Onnx.C58_sub_ignores`, `Onnx.C59_average_pool_partial`, `Onnx.C59_clip_inputs_raises`, `Onnx.C59_clip_scalar_raises`, `Onnx.C59_conv_example`, `Onnx.C59_conv_partial`, `Onnx.C59_dilations`, `Onnx.C59_gemm`, `Onnx.C59_gemm_alpha_raises`, `Onnx.C59_gemm_no_bias_raises`, `Onnx.C59_global_average_pool`, `Onnx.C59_group_raises`, `Onnx.C59_max_pool_partial`, `Onnx.C59_pool_dilations`, `Onnx.C59_pool_kernel`, `Onnx.C59_strides`, `Onnx.C60_example`, `Onnx.C60_import_correct_partial`, `Onnx.C61_generable_example`, `Onnx.C61_onnx_to_c_partial`, `Onnx.C63_onnx_program_partial`, `Onnx.C64_example`, `Onnx.C64_onnx_program_partial`, `Onnx.Origin.inSizes`, `Onnx.Origin.size`, `Onnx.import_generable`, `Onnx.import_inputsOK`, `Onnx.import_texts`, `Opt.C33_code`, `Opt.C33_fold`, `Opt.C34_fails_buffer`, `Opt.C34_silu`, `Opt.C35_fails_first`, `Opt.C35_fails_flatten`, `Opt.C35_optimise_finishes`, `Opt.C35_optimise_preserves_layers_partial`, `Opt.C35_optimise_preserves_output_partial`, `Opt.C36_consecutive_partial`, `Opt.C36_fails_collision`, `Opt.C36_fails_dict`, `Opt.C36_indices_partial`, `Opt.C36_interp_partial`, `Opt.C36_optimised_code_partial`, `Opt.realSem_ok`, `OptNet.C71_example`, `OptNet.C71_memory_exists`, `OptNet.C71_optimised_program_partial`, `Torch.C68_alpha_ignored`, `Torch.C68_cat_negative_raises`, `Torch.C68_conv_two_args_raises`, `Torch.C68_default_stride_raises`, `Torch.C68_example`, `Torch.C68_import_correct_partial`, `Torch.C68_input_shape_partial`, `Torch.C68_leaky_relu`, `Torch.C68_linear_no_bias_raises`, `Torch.C68_operand_overwritten`, `Torch.C68_pool_dilation_ignored`, `Torch.C68_relu_after_pool`, `Torch.C68_relu_on_input`, `Torch.C68_second_stride_ignored`, `Torch.C68_unknown_dropped`, `Torch.C68_unknown_examples`, `Torch.C69_example`, `Torch.C69_torch_program_partial`
* **Quot.sound, propext**: `CText.C62_empty_not_declared`, `CText.C62_header_unique`, `CText.C62_params_unique`, `CText.C74_transposed_gemm_undeclared`, `CText.C74_tt_result_undeclared`, `CText.C75_activation_undeclared`, `CText.C76_nn_undeclared`, `CText.C76_table_undeclared`, `CText.convForm_arrays`, `CText.cubic1_isC_iff`, `CText.cubic2_isC_iff`, `CText.linear1_isC_iff`, `CText.nearest_isC_iff`, `CText.out_not_bound`, `Gen.C31_other_string`, `Gen.C37_versioning_total`, `Gen.C38_factories`, `Gen.C39_append_only`, `Gen.C39_refuses`, `Gen.C40_block`, `Gen.C40_calls`, `Gen.C44_shift`, `Gen.C48_fails_two_digits`, `Graph.C02_fails_constant_fed`, `Graph.C03_fails_duplicate_input`, `Graph.C04_fails_duplicate_input`, `Graph.C06_fails_duplicate_input`, `Layers.C13_fails_ignored_padding`, `Layers.C14_forward_defined`, `Layers.C21_fails_reflect_singleton`, `Layers.C21_fails_wrap_full`, `Layers.C22_fails_second_consumer`, `Layers.C24_fails_batch_axis`, `Layers.C24_fails_noop_elsewhere`, `Layers.C25_fails_no_axis`, `Layers.C27_fails_not_C`
* **propext**: `Gen.C31_fails_dilated_conv_rejected`, `Gen.C31_fails_dilation`, `Gen.C31_list`, `Gen.C39_custom`, `Gen.C39_fails_bin`, `Gen.C39_fails_bin_missing`, `Gen.C41_fails_not_power`, `Gen.C43_fails_unicode`, `Gen.C48_fails_no_target`, `Gen.C48_fails_wrong_layer`, `Layers.C50_buildable`
* **none**: `Gen.C48_fails_duplicate`, `Layers.C50_fails_block`
