{"id": "C01", "title": "Every shipped group is a group", "statement": "For each of the 11 groups in group_dict, `composition` is an associative multiplication table on {0..order-1} with two-sided identity 0, and `inverses[i]` is a two-sided inverse of i. composition[r][c] is r composed with c.", "quantifier": "every shipped group and every pair/triple of its elements (up to 48^3 triples)", "why_tests_cant": "The tests only check the diagonal composition[r][inverses[r]] == 0; associativity and the two-sided laws are never exercised, and they are what every other property is built on.", "anchors": ["groco/groups/group.py:Group.composition", "groco/groups/group.py:Group.inverses", "groco/groups/wallpaper_groups.py:P4M,P4,P2MM,PMh,PMw,P2,P1", "groco/groups/space_groups.py:Oh,O,D4h,D4"]}
{"id": "C02", "title": "Grid action is a left group action compatible with the composition table", "statement": "Acting on a signal on the grid with g and then with h gives exactly the same tensor as acting once with composition[h][g]; acting with element 0 leaves the signal unchanged.", "quantifier": "every shipped group, all pairs of elements, every tensor rank, every grid size, every element type and value, every placement of the spatial axes and of the new group axis", "why_tests_cant": "Tests use one 28x28x3 or 4x4x4x3 random tensor and a fixed axis layout.", "anchors": ["groco/groups/group.py:Group.action", "groco/groups/wallpaper_groups.py:P4M_action,P4_action,P2MM_action,PMh_action,PMw_action,P2_action,P1_action", "groco/groups/space_groups.py:Oh_action"]}
{"id": "C03", "title": "Each group element moves pixels by the documented rigid motion", "statement": "Element i of a group moves the value at grid position p to the position obtained by applying an integer orthogonal matrix about the centre of the grid, and over all i these matrices are exactly the documented symmetries: P4M all orthogonal integer 2x2 matrices, P4 those with determinant 1, P2MM the diagonal ones, P2 {1,-1}, PMh/PMw one reflection; Oh all orthogonal integer 3x3 matrices, O those of determinant 1, D4h those preserving the depth axis, D4 their determinant 1 part.", "quantifier": "every shipped group, every grid size, every signal, every grid position, every integer matrix", "why_tests_cant": "No test says what motion an element performs; tests only compare the code with itself.", "anchors": ["groco/groups/wallpaper_groups.py:*_action", "groco/groups/space_groups.py:Oh_action,Oh_parameters", "README.md:Implemented groups", "docs/source/symmetries.rst"]}
{"id": "C04", "title": "Grid action succeeds exactly on grids the group can act on", "statement": "Acting with a group containing a quarter turn or an axis exchange on a grid whose exchanged axes have different lengths raises an error instead of returning a mis-shaped tensor; acting on a grid on which every element preserves the shape succeeds and yields the input shape with the group order inserted at the requested axis. In particular D4h and D4 act on cuboids whose depth differs from height and width.", "quantifier": "every shipped group, every tensor shape, every axis placement", "why_tests_cant": "Only square/cubic grids are tested.", "anchors": ["groco/groups/group.py:Group._action_on_grid", "groco/groups/group.py:Group._compute_action", "groco/groups/wallpaper_groups.py:P4M_action,P4_action", "groco/groups/space_groups.py:Oh_action", "README.md:3D"]}
{"id": "C05", "title": "Action on group signals is the regular representation", "statement": "For a signal f on grid x group, the result of acting with g has at (position p, group element h) the value f(g^-1 p, g^-1 h), and this is a left action: acting with g then h equals acting with composition[h][g].", "quantifier": "every shipped group, every tensor rank, size, value, every placement of group axis and new group axis", "why_tests_cant": "Tests compare two code paths on one small random tensor and one axis layout.", "anchors": ["groco/groups/group.py:Group._action_on_group", "groco/groups/group.py:Group._composition_flat_indices"]}
{"id": "C06", "title": "Acting with a subgroup selects the subgroup's slices, and agrees with the subgroup's own object", "statement": "group.action(..., acting_group=H) is the list of slices of the full action at the indices group.subgroup[H], in that order; on the grid it equals group_dict[H].action, and group.composition restricted to those indices is the composition table of group_dict[H].", "quantifier": "every pair (group, listed subgroup), every signal, shape and axis placement", "why_tests_cant": "Tests sample one random tensor per pair and never check table compatibility.", "anchors": ["groco/groups/group.py:Group.action", "groco/groups/group.py:Group.subgroup", "groco/groups/wallpaper_groups.py", "groco/groups/space_groups.py"]}
{"id": "C07", "title": "Acting on a signal defined on a subgroup treats it as zero outside", "statement": "group.action(..., domain_group=H, acting_group=A): the slice of a in A, at d in H, is f(a^-1 p, a^-1 d) if a^-1 d is in H and 0 otherwise. With A = H it equals the action of group_dict[H].", "quantifier": "every (group, acting subgroup, domain subgroup), every signal, shape, axis placement", "why_tests_cant": "Tests only check A = H on one random tensor and the output shape for A = G.", "anchors": ["groco/groups/group.py:Group._action_on_group", "groco/groups/group.py:Group.upsample"]}
{"id": "C08", "title": "upsample is extension by zero", "statement": "group.upsample(f, axis, H) has at group element g the value of f at the position of g in group.subgroup[H] if g is listed there and 0 otherwise; taking group.subgroup[H] of the result returns f; it commutes with the action of H.", "quantifier": "every (group, subgroup), every tensor rank, shape, group axis and value", "why_tests_cant": "One random tensor per pair.", "anchors": ["groco/groups/group.py:Group.upsample"]}
{"id": "C09", "title": "A group derived from a parent is a valid group embedded in the parent", "statement": "Group(name, order, parent=P) for a parent satisfying the group laws and a duplicate-free index list P.subgroup[name] that starts with the identity and is closed under composition yields a group satisfying the group laws, whose element i composes, inverts and acts exactly as element P.subgroup[name][i] of the parent, and whose listed subgroups are exactly those listed subgroups of the parent that lie inside it.", "quantifier": "every valid parent group of any order and every closed index list (user-defined groups included)", "why_tests_cant": "Only the three shipped derived groups can be tested.", "anchors": ["groco/groups/group.py:Group.__init__", "groco/groups/group.py:Group._compute_composition", "groco/groups/group.py:Group._compute_inverses", "groco/groups/group.py:Group._compute_subgroup", "groco/groups/group.py:Group._compute_action", "groco/groups/group.py:Group._external_to_internal_indices"]}
{"id": "C10", "title": "Coset representatives tile the group, also for derived groups", "statement": "For each listed subgroup H, every group element is composition[h][c] for exactly one h in subgroup[H] and exactly one c in cosets[H]; if this holds in a parent group it also holds in every group derived from it.", "quantifier": "every shipped (group, subgroup) pair, every group element; every valid parent and derived subgroup", "why_tests_cant": "Tests cover the shipped tables only; inheritance to derived groups is a general claim.", "anchors": ["groco/groups/group.py:Group.cosets", "groco/groups/group.py:Group._compute_cosets"]}
{"id": "C11", "title": "Merging axes loses and moves no data", "statement": "merge_axes(t, m, k): the entry of t at index i with i_m = x, i_k = y is found at the index with axis m removed and x * size_k + y in the merged axis, every other coordinate unchanged; the shape is merge_shapes(t.shape, m, k).", "quantifier": "every tensor rank, shape, value and every pair of distinct axes, negative axes included", "why_tests_cant": "Unbounded ranks, shapes and axis pairs.", "anchors": ["groco/utils/tensor_manips.py:merge_axes", "groco/utils/tensor_manips.py:merge_shapes", "groco/utils/tensor_manips.py:move_axis_to_left_of"]}
{"id": "C12", "title": "split_axes and merge_axes are mutually inverse", "statement": "split_axes(merge_axes(t, m, m+1), size_m, m) == t, and merge_axes(split_axes(t, f, k), k, k+1) == t whenever f divides the size of axis k.", "quantifier": "every tensor rank, shape, value, axis and factor", "why_tests_cant": "Unbounded ranks and shapes.", "anchors": ["groco/utils/tensor_manips.py:split_axes", "groco/utils/tensor_manips.py:merge_axes", "groco/utils/tensor_manips.py:split_shapes", "groco/utils/tensor_manips.py:merge_shapes"]}
{"id": "C13", "title": "move_axis_to_left_of preserves the order of the other axes", "statement": "After move_axis_to_left_of(t, m, k) the moved axis is immediately to the left of the target axis and the remaining axes keep their relative order; entries are only re-indexed.", "quantifier": "every rank, shape and pair of distinct axes (also both negative)", "why_tests_cant": "Unbounded ranks.", "anchors": ["groco/utils/tensor_manips.py:move_axis_to_left_of"]}
{"id": "C14", "title": "Index tensors reproduce any re-indexing of a tensor", "statement": "take(reshape(t,-1), get_index_tensor(t)) == t, and for the kernel transformation: gathering the flattened kernel at the transformed index tensor equals transforming the kernel itself, whenever the transformation only re-indexes.", "quantifier": "every tensor shape and value; every shipped group, kernel shape, channel count", "why_tests_cant": "Unbounded shapes; the tests never compare with a direct transformation.", "anchors": ["groco/utils/tensor_manips.py:get_index_tensor", "groco/layers/group_transforms.py:GroupTransforms.transform_kernel", "groco/layers/group_transforms.py:GroupTransforms._compute_transformed_kernel_indices"]}
{"id": "C15", "title": "Axis merging and splitting are batch-size agnostic", "statement": "A reshape traced with an unknown batch dimension (None, replaced by -1) gives, for every actual batch size, the same result as the reshape with the known batch size.", "quantifier": "every batch size, every shape, every axis not involving the batch axis", "why_tests_cant": "Unbounded batch sizes; tests run eagerly with batch 1 or 2.", "anchors": ["groco/utils/tensor_manips.py:format_batch_dim", "groco/utils/tensor_manips.py:split_axes", "groco/utils/tensor_manips.py:merge_axes"]}
{"id": "C16", "title": "valid_equiv padding makes the sampling grid symmetric", "statement": "If building with padding='valid_equiv' succeeds, then on every spatial axis the padding is the same before and after, and the last window ends exactly at the end of the padded axis: (size + padding - kernel) % stride == 0.", "quantifier": "every number of dimensions, every input size, kernel size and stride per axis", "why_tests_cant": "Six literal configurations are tested out of an infinite space.", "anchors": ["groco/layers/padding.py:EquivariantPadding.build", "groco/layers/padding.py:EquivariantPadding.compute_extra_padding", "groco/layers/padding.py:EquivariantPadding.split_padding"]}
{"id": "C17", "title": "same_equiv padding makes the sampling grid symmetric, together with Keras's own padding", "statement": "If building with padding='same_equiv' succeeds, then the extra padding plus the 'same' padding Keras adds to the already padded input is the same before and after on every axis, and the last window ends exactly at the end.", "quantifier": "every number of dimensions, every input size, kernel size and stride per axis", "why_tests_cant": "The built-in padding is recomputed by Keras on a different size than the one the layer used; agreement for all sizes is an arithmetic theorem.", "anchors": ["groco/layers/padding.py:EquivariantPadding.compute_built_in_padding", "groco/layers/padding.py:EquivariantPadding.split_padding"]}
{"id": "C18", "title": "The extra padding is minimal", "statement": "With 'valid_equiv' or 'same_equiv' the extra padding chosen on each axis is the smallest non-negative amount for which the total padding is even and (size + total padding - kernel) % stride == 0.", "quantifier": "every size, kernel, stride, both options", "why_tests_cant": "Universal claim about all smaller amounts.", "anchors": ["groco/layers/padding.py:EquivariantPadding.compute_extra_padding", "docs/source/layers/convolutional.rst"]}
{"id": "C19", "title": "Padding is refused exactly when no equivariant padding exists", "statement": "With 'valid_equiv'/'same_equiv' building raises ValueError if and only if on some axis no amount of padding is even in total and satisfies (size + padding - kernel) % stride == 0.", "quantifier": "every number of dimensions, sizes, kernels, strides", "why_tests_cant": "Non-existence over all padding amounts.", "anchors": ["groco/layers/padding.py:EquivariantPadding.build", "groco/layers/padding.py:EquivariantPadding.padding_parity_error", "groco/layers/padding.py:EquivariantPadding.configuration_string"]}
{"id": "C20", "title": "Plain valid/same padding is refused exactly when it spoils symmetry", "statement": "With 'valid' or 'same' and allow_non_equivariance=False, building raises ValueError iff the total padding is odd or the last window does not end at the end of the axis, on some axis; with allow_non_equivariance=True it never raises and never pads.", "quantifier": "every number of dimensions, sizes, kernels, strides", "why_tests_cant": "Infinite configuration space; tests never exercise the refusing branch.", "anchors": ["groco/layers/padding.py:EquivariantPadding.build", "groco/layers/padding.py:EquivariantPadding.non_equivariant_error"]}
{"id": "C21", "title": "The padding layer pads the spatial axes only", "statement": "A layer with data_format='channels_first' pads its spatial axes, never its channel axis, by the same amounts as the channels_last layer would on the same spatial sizes.", "quantifier": "every input shape, kernel, stride, both data formats, padding layer used alone or inside a group layer", "why_tests_cant": "Tests never combine channels_first with a configuration that needs padding inside a layer.", "anchors": ["groco/layers/padding.py:EquivariantPadding.build", "groco/layers/group_transforms.py:GroupTransforms.__init__"]}
{"id": "C22", "title": "GroupConv computes the group convolution", "statement": "For built GroupConv2D/3D, output(b,p,a,o) = activation(bias(o) + sum over kernel offsets k, group elements g, channels c of x(b, p*stride + k - pad, g, c) * kernel(a^-1 k, a^-1 g, c, o)), without the g-sum for a lifting layer; its shape is (batch, out..., |subgroup|, filters).", "quantifier": "every shipped group and subgroup, batch size, spatial size, kernel size, stride, channel and filter counts, all weights and inputs", "why_tests_cant": "Infinite input space; no test checks any output value.", "anchors": ["groco/layers/conv2d.py:GroupConv2D.call", "groco/layers/conv3d.py:GroupConv3D.call", "groco/layers/group_transforms.py:GroupTransforms.prepare_call", "groco/layers/group_transforms.py:GroupTransforms.restore_group_axis"]}
{"id": "C23", "title": "Lifting convolution is equivariant", "statement": "For a GroupConv2D/3D that builds with padding in {valid, same, valid_equiv, same_equiv} and allow_non_equivariance=False on a grid-valued input, transforming the input with an element of the subgroup and applying the layer equals applying the layer and transforming the output.", "quantifier": "every shipped group and subgroup, every input, weights, bias, activation, spatial size, kernel size and (isotropic) stride", "why_tests_cant": "Tests check one random 3x3 signal with one 3x3 kernel, up to 1e-4.", "anchors": ["groco/layers/conv2d.py:GroupConv2D.call", "groco/layers/conv3d.py:GroupConv3D.call"]}
{"id": "C24", "title": "Group-to-group convolution is equivariant", "statement": "The same for group-valued inputs: L(h x) = h L(x) for each h in the acting subgroup, input on the full group, output on the subgroup.", "quantifier": "every shipped group and subgroup, every input, weights, bias, activation, spatial size, kernel size and (isotropic) stride", "why_tests_cant": "One random 3x3 signal, strides 1,3,5,7.", "anchors": ["groco/layers/conv2d.py:GroupConv2D.call", "groco/layers/conv3d.py:GroupConv3D.call", "groco/layers/group_transforms.py:GroupTransforms"]}
{"id": "C25", "title": "A built layer never silently breaks equivariance", "statement": "If allow_non_equivariance=False, every configuration of GroupConv (strides per axis, dilation_rate, data_format) either is refused with an error or is equivariant.", "quantifier": "every accepted configuration: anisotropic strides, dilation, data format", "why_tests_cant": "Infinite configuration space; tests use isotropic strides, no dilation.", "anchors": ["groco/layers/padding.py:EquivariantPadding.build", "groco/layers/group_transforms.py:GroupTransforms.__init__", "groco/layers/conv2d.py:GroupConv2D.__init__"]}
{"id": "C26", "title": "The identity slice is the ordinary convolution", "statement": "The output of a lifting GroupConv at the identity element equals the ordinary Keras convolution of the (padded) input with the same kernel and bias; in particular a P1 GroupConv is the ordinary convolution.", "quantifier": "every group, input, weights, sizes", "why_tests_cant": "Universal over inputs and weights; not tested.", "anchors": ["groco/layers/group_transforms.py:GroupTransforms.transform_kernel", "groco/layers/conv2d.py:GroupConv2D.call"]}
{"id": "C27", "title": "Weights are shared, not multiplied", "statement": "Each group slice of the transformed kernel is a rearrangement of the stored kernel (every stored weight is used exactly once per slice), and the bias used for group element a and filter o is bias[o].", "quantifier": "every group, kernel shape, channel count, weights", "why_tests_cant": "Universal over shapes.", "anchors": ["groco/layers/group_transforms.py:GroupTransforms._compute_transformed_kernel_indices", "groco/layers/group_transforms.py:GroupTransforms._compute_repeated_bias_indices"]}
{"id": "C28", "title": "compute_output_shape is the shape of the output", "statement": "compute_output_shape(input_shape) of a built layer equals the shape of layer(x) for every x of that shape.", "quantifier": "every group, subgroup, padding, stride and input shape", "why_tests_cant": "Infinite shape space; the method is never tested.", "anchors": ["groco/layers/conv2d.py:GroupConv2D.compute_output_shape", "groco/layers/group_transforms.py:GroupTransforms.correct_output_shape"]}
{"id": "C29", "title": "Calling a layer does not change it", "statement": "Over any sequence of calls, kernel, bias and filters are the same after each call as before, whether the call returned or raised, so each successful output is the pure function of weights and input.", "quantifier": "every sequence of calls with arbitrary inputs, including calls that raise at any point", "why_tests_cant": "Needs all histories and all crash points.", "anchors": ["groco/utils/misc.py:backup_and_restore", "groco/layers/conv2d.py:GroupConv2D.call"]}
{"id": "C30", "title": "channels_first is channels_last up to moving the channel axis", "statement": "A channels_first group convolution, transposed group convolution or group pooling layer equals the channels_last one with the same weights after moving the channel axis of input and output.", "quantifier": "every group, subgroup, shape, weights, configuration", "why_tests_cant": "Only one stride-1 configuration is tested, and only for equivariance.", "anchors": ["groco/layers/group_transforms.py:GroupTransforms.merge_group_axis_and_pad", "groco/layers/group_transforms.py:GroupTransforms.restore_group_axis"]}
{"id": "C31", "title": "Transposed group convolution is equivariant", "statement": "For each h in the subgroup, L(h x) = h L(x) for a GroupConv2DTranspose/3DTranspose built with allow_non_equivariance=False, for stride 1 and for stride equal to kernel size with valid padding (README), input on the subgroup (or grid), output on the group.", "quantifier": "every group, subgroup, input, weights, size", "why_tests_cant": "Random 3x3 samples; README itself is unsure about strides.", "anchors": ["groco/layers/conv2d_transpose.py:GroupConv2DTranspose.call", "groco/layers/conv3d_transpose.py:GroupConv3DTranspose.call", "README.md:Transposed Convolution"]}
{"id": "C32", "title": "Transposed kernel is the group action on the stored kernel, zero outside the subgroup", "statement": "In a transposed group convolution the kernel used for element a is the stored kernel, read as a signal on the subgroup that is zero outside it, acted on by a; at the identity it is the stored kernel, so a P1 transposed layer is the ordinary Conv2DTranspose.", "quantifier": "every group, subgroup, kernel shape and weights", "why_tests_cant": "No test checks any output value of the transposed layers.", "anchors": ["groco/layers/group_transforms.py:GroupTransforms._compute_transformed_kernel_indices", "groco/groups/group.py:Group.upsample"]}
{"id": "C33", "title": "Subgroup pooling aggregates each coset exactly once", "statement": "GroupPooling with subgroup H outputs at h in H the max (mean) of the input over {composition[h][c] : c in cosets[H]}; these sets partition the group.", "quantifier": "every (group, subgroup), every signal, shape", "why_tests_cant": "No value is tested.", "anchors": ["groco/layers/group_transforms.py:GroupTransforms.subgroup_pooling", "groco/layers/group_transforms.py:GroupTransforms.build_pool"]}
{"id": "C34", "title": "Group pooling layers are equivariant", "statement": "For GroupMaxPooling/GroupAveragePooling 2D/3D built with allow_non_equivariance=False: L(h x) = h L(x) for each h in the subgroup, with strides given or left at their default.", "quantifier": "every group, subgroup, input, pool size, stride, padding option, size", "why_tests_cant": "Tests use 8x8 inputs with pool size 2.", "anchors": ["groco/layers/pooling.py:GroupPooling"]}
{"id": "C35", "title": "Global group pooling is invariant", "statement": "GlobalGroupMaxPooling/AveragePooling of g x equals that of x; the result is the max (mean) over all positions and all group elements, with or without keepdims.", "quantifier": "every group, element, input, size, both data formats", "why_tests_cant": "Only the shape is tested.", "anchors": ["groco/layers/pooling.py:GlobalGroupPooling"]}
{"id": "C36", "title": "check_equivariance is sound and complete", "statement": "check_equivariance returns 0 iff the layer commutes with the action of every element of acting_group on the given signal (for a layer that treats batch entries independently), and raises AssertionError if the signal or the layer output has the wrong group axis size.", "quantifier": "every layer function, signal, group, acting/domain/target subgroup", "why_tests_cant": "Universal over layers.", "anchors": ["groco/utils/equivariance.py:check_equivariance", "groco/utils/equivariance.py:_act_on_batched_transform", "groco/utils/equivariance.py:_check_shape"]}
{"id": "C37", "title": "Stacks of equivariant layers are equivariant and end in invariants", "statement": "A sequential model of layers each equivariant to H is equivariant to H, and followed by global group pooling is invariant to H.", "quantifier": "every sequence of layers of any length", "why_tests_cant": "Unbounded depth.", "anchors": ["tests/test_model.py", "README.md:Overview"]}
{"id": "C38", "title": "Layers can be rebuilt and saved", "statement": "get_config of a group layer returns a configuration from which an equal layer can be constructed; building an already built layer again leaves it unchanged.", "quantifier": "every layer configuration and input shape", "why_tests_cant": "Never tested; universal over configurations.", "anchors": ["groco/layers/group_transforms.py:GroupTransforms.get_config", "groco/layers/padding.py:EquivariantPadding.get_config", "groco/layers/group_transforms.py:GroupTransforms.build"]}
{"id": "C39", "title": "Option strings are parsed consistently", "statement": "A padding option is accepted iff it is one of the four documented names (in any case), and the option handed to Keras is the same name without the _equiv suffix; unknown subgroup names raise KeyError; subgroup='' means the whole group, and so does the documented default None.", "quantifier": "every string", "why_tests_cant": "Infinite set of strings.", "anchors": ["groco/layers/padding.py:EquivariantPadding.format_padding_option", "groco/groups/group.py:Group.parse_subgroup", "groco/layers/group_transforms.py:GroupTransforms.__init__"]}
{"id": "C40", "title": "A negative new_group_axis counts from the end", "statement": "group.action(..., new_group_axis=-k) on a signal of rank r gives the same tensor as new_group_axis=r+1-k, as for every Keras function taking an axis, or raises an error.", "quantifier": "every group, signal and axis", "why_tests_cant": "Tests use a handful of axes on a handful of shapes.", "anchors": ["groco/groups/wallpaper_groups.py:P4M_action", "groco/groups/wallpaper_groups.py:PMh_action", "groco/groups/space_groups.py:Oh_action", "groco/groups/group.py:Group.action"]}
{"id": "C41", "title": "What a transposed group convolution computes", "statement": "Calling a built GroupConv2DTranspose/3DTranspose never fails on a signal of the right rank and channels, and returns the transposed convolution of the padded signal with the transformed kernel: each input entry times the kernel, added to the output positions it reaches with the given strides and dilation, cropped as Keras does for 'same'; the bias is added once per output channel of each group element.", "quantifier": "every group, subgroup, kernel, stride, dilation, padding option, input size and values", "why_tests_cant": "The tests check shapes and equivariance errors of random samples only.", "anchors": ["groco/layers/conv2d_transpose.py:GroupConv2DTranspose.call", "groco/layers/conv3d_transpose.py:GroupConv3DTranspose.call"]}
{"id": "C42", "title": "Pooling layers refuse signals that are not on the group", "statement": "Building a GroupMaxPooling/GroupAveragePooling layer on signals on the grid, which have no group axis to pool over, raises an error.", "quantifier": "every group, subgroup, configuration and input shape", "why_tests_cant": "The tests only build pooling layers on signals on the group.", "anchors": ["groco/layers/pooling.py:GroupPooling.build", "groco/layers/group_transforms.py:GroupTransforms.build", "groco/layers/group_transforms.py:GroupTransforms.subgroup_pooling"]}
{"id": "C43", "title": "Signals with the wrong number of group elements are refused", "statement": "Building a group convolution, transposed group convolution or group pooling layer raises AssertionError exactly when the input shape has a group axis and its size is not the number of elements of the group the layer expects its inputs on: the whole group, or the subgroup in a transposed layer. No other input shape, and nothing else that goes wrong during build, shows up as AssertionError.", "quantifier": "every group, subgroup, layer configuration, data format and input shape, with known and unknown sizes", "why_tests_cant": "The tests build each layer on one correct shape.", "anchors": ["groco/layers/group_transforms.py:GroupTransforms.build", "groco/layers/conv2d.py:GroupConv2D.build", "groco/layers/pooling.py:GroupPooling.build"]}
{"id": "C44", "title": "Exactly which configurations can be built", "statement": "With channels_last, a group layer can be constructed and built exactly if: the padding is an accepted string; there is one positive kernel (pool) size, stride and dilation rate per dimension, at least one filter, and not both strides and dilation above one; the input has no group axis or one with as many elements as expected (pooling needs one to work, see C42); the kernel has sizes the group can act on; on every axis symmetric sampling is possible as far as the padding option asks for it; and, for 'valid' convolutions, the dilated kernel exceeds the input by at most one stride. Every other combination of group, subgroup, sizes, channels, bias, batch size and weights builds without error, and whatever violates one of the conditions raises.", "quantifier": "every group, subgroup, argument and input size, unknown batch size included", "why_tests_cant": "Tests build a few configurations; which of infinitely many sizes and options are refused is not testable.", "anchors": ["groco/layers/conv2d.py:GroupConv2D.build", "groco/layers/conv2d_transpose.py:GroupConv2DTranspose.build", "groco/layers/pooling.py:GroupPooling.build", "groco/layers/group_transforms.py:GroupTransforms.build", "groco/layers/padding.py:EquivariantPadding.build"]}
{"id": "C45", "title": "The subgroup argument selects slices", "statement": "Two channels_last group convolution layers that differ only in `subgroup` and carry the same kernel and bias can be built on the same inputs, accept the same inputs, give outputs of the same grid sizes, and agree at every group element that both compute. In particular a layer with subgroup H computes the slices at H of what the layer for the whole group computes: `subgroup` is a stride in the group direction.", "quantifier": "every group, pair of subgroups, padding, strides, dilation, input, kernel, bias, with and without group axis", "why_tests_cant": "A test compares a few pairs of layers on a few inputs.", "anchors": ["groco/layers/conv2d.py:GroupConv2D", "groco/layers/conv3d.py:GroupConv3D", "groco/layers/group_transforms.py:GroupTransforms"]}
{"id": "C46", "title": "Group convolutions commute with translations", "statement": "If a signal is moved along the grid axes by a whole number t of strides per axis (in either direction) with nothing but zeros pushed off or onto the grid, then a channels_last group convolution layer, lifting or not, accepts it exactly if it accepts the original, and the output at position p + t, for every group element and filter, is the original output at p, wherever both positions exist; whatever zeros the padding options insert.", "quantifier": "every group, subgroup, padding, strides, dilation, translation, signal, kernel, bias", "why_tests_cant": "Tests check symmetries of the point group on a few inputs; translations, strides and sizes are unbounded.", "anchors": ["groco/layers/conv2d.py:GroupConv2D.call", "groco/layers/conv3d.py:GroupConv3D.call", "groco/layers/padding.py:EquivariantPadding.call"]}
{"id": "C47", "title": "Ways of writing the arguments", "statement": "As in Keras, kernel and pool sizes, strides and dilation rates may be written as one integer, a tuple or a list, groups by name or as an object, and arguments may be left out: the layer constructed and built is the one with every size written as a tuple, the group as an object, and the documented default for everything left out (subgroup '', padding 'valid_equiv', strides 1, Keras's configured data format, ...), errors included.", "quantifier": "every group, dimension, choice of arguments written or left out, input shape, configuration of Keras", "why_tests_cant": "The combinations of ways to write the arguments with all sizes are unbounded, and tests use one configuration of Keras.", "anchors": ["groco/layers/padding.py:EquivariantPadding.__init__", "groco/layers/padding.py:EquivariantPadding.build", "groco/layers/group_transforms.py:GroupTransforms.__init__", "groco/layers/conv2d.py:GroupConv2D.__init__", "groco/layers/pooling.py:GroupPooling.__init__"]}
{"id": "C48", "title": "The Keras argument groups", "statement": "GroupConv2D/3D accept the Keras argument groups: with groups=q the layer is refused unless q divides the filters and the channels; otherwise each filter sees one of q parts of the channels, the same part for every element of the subgroup and the same channels of every group element, so that the layer is equivariant in the configurations in which it is without groups; groups=1 is the same as leaving it out.", "quantifier": "every group, subgroup, padding, strides, number of groups, channels and filters, kernel, bias, input", "why_tests_cant": "The argument is passed on to Keras untested; sizes, groups and weights are unbounded.", "anchors": ["groco/layers/conv2d.py:GroupConv2D.__init__", "groco/layers/conv2d.py:GroupConv2D.build", "groco/layers/conv2d.py:GroupConv2D.call", "groco/layers/group_transforms.py:GroupTransforms._compute_transformed_kernel_indices"]}
{"id": "C49", "title": "Other numbers of group elements", "statement": "A convolution, transposed convolution or group pooling layer built on signals with g group elements refuses to be called on signals with another number of group elements.", "quantifier": "every group, subgroup, padding, strides, channels, number of group elements, input", "why_tests_cant": "Tests call layers on inputs of the shape they are built on; the numbers of elements, channels and filters for which a call goes through are unbounded.", "anchors": ["groco/layers/group_transforms.py:GroupTransforms.merge_group_axis_and_pad", "groco/layers/group_transforms.py:GroupTransforms.subgroup_pooling", "groco/layers/conv2d.py:GroupConv2D.call", "groco/layers/conv2d_transpose.py:GroupConv2DTranspose.call", "groco/layers/pooling.py:GroupPooling.call"]}
{"id": "C50", "title": "Traced calls agree with eager calls", "statement": "Calling a built convolution, transposed convolution or pooling layer inside a traced graph (model.fit, model.predict, tf.function), where the sizes of some of the batch and spatial axes of the input are None while the Python code runs, gives on every actual input with positive sizes the same output (or error), and leaves the layer in the same state, as calling it eagerly.", "quantifier": "all groups, subgroups, layer arguments, data formats, sets of unknown axes, inputs", "why_tests_cant": "Tests call the layers eagerly, where all sizes are known; the claim is about all sets of unknown axes and all sizes met later.", "anchors": ["groco/utils/tensor_manips.py:41-128", "groco/layers/group_transforms.py:75-119", "groco/layers/conv2d.py:59-65", "groco/layers/pooling.py:60-64"]}
{"id": "C51", "title": "Groups are found by their names", "statement": "group_dict[s] is, for every string s, the library group whose name attribute is s, and a KeyError if no group has that name; wallpaper_group_dict and space_group_dict contain exactly the two- and three-dimensional groups under their names.", "quantifier": "every string; every library group", "why_tests_cant": "Infinite set of strings; tests look up a few of the groups and never compare the object found with its name.", "anchors": ["groco/groups/__init__.py:group_dict", "groco/groups/wallpaper_groups.py:wallpaper_group_dict", "groco/groups/space_groups.py:space_group_dict", "groco/layers/group_transforms.py:GroupTransforms.__init__"]}
{"id": "C52", "title": "A negative group_axis counts from the end", "statement": "group.action(..., group_axis=-k) on a signal of rank r gives the same tensor as group_axis=r-k, as for every Keras function taking an axis, or raises an error.", "quantifier": "every group, acting subgroup, domain, signal, spatial axes, new group axis", "why_tests_cant": "Tests use non-negative axes on a handful of shapes.", "anchors": ["groco/groups/group.py:Group._action_on_group", "groco/groups/group.py:Group.upsample", "groco/utils/tensor_manips.py:merge_axes", "groco/utils/tensor_manips.py:split_axes"]}
{"id": "C53", "title": "A trained layer is a newly built one", "statement": "After any history of calls that return and weight updates (set_weights, optimizer steps) a GroupConv layer equals the layer newly built with the current weights, and every call in the history returned what a new layer with the weights of that moment returns: nothing computed at build time goes stale and no call leaves a trace.", "quantifier": "every layer that can be built, every finite history of calls and weight updates in which the calls return, every input", "why_tests_cant": "Histories and weights are unbounded; tests compare single calls of freshly built layers, and a stale cache shows up only after an update.", "anchors": ["groco/layers/conv2d.py:GroupConv2D.build", "groco/layers/conv2d.py:GroupConv2D.call", "groco/layers/group_transforms.py:GroupTransforms.build_conv", "groco/layers/group_transforms.py:GroupTransforms.prepare_call", "groco/utils/misc.py:backup_and_restore"]}
{"id": "C54", "title": "Layers without activation are linear", "statement": "A group convolution (transposed or not, either data format, any padding) without bias and activation maps c*x1+x2 to c*y1+y2; without activation it is linear in the kernel and bias together; average pooling and global average pooling are linear. Acceptance of an input depends on its shape only.", "quantifier": "every layer that can be built, every scalar, all inputs, all weights", "why_tests_cant": "All inputs, scalars and weights; tests compare single calls.", "anchors": ["groco/layers/conv2d.py:GroupConv2D.call", "groco/layers/group_transforms.py:GroupTransforms.prepare_call", "groco/layers/group_transforms.py:GroupTransforms.restore_group_axis", "groco/layers/pooling.py:GroupPooling.call", "groco/layers/pooling.py:GlobalGroupPooling.call"]}
{"id": "C55", "title": "Pooling stays within the values of its input", "statement": "The entries of the result of a pooling layer lie between the smallest and the largest entry of the input; for maximum pooling they are entries of the input, and a monotone activation may be applied before or after the pooling layer.", "quantifier": "every pooling layer that can be built, every input, every bounds, every monotone function", "why_tests_cant": "All inputs and functions; tests pool random inputs, whose maxima are positive, so that padded zeros do not show.", "anchors": ["groco/layers/pooling.py:GroupPooling.call", "groco/layers/pooling.py:GlobalGroupPooling.call", "groco/layers/group_transforms.py:GroupTransforms.subgroup_pooling", "groco/layers/group_transforms.py:GroupTransforms.merge_group_axis_and_pad", "groco/layers/padding.py:EquivariantPadding.call"]}
{"id": "C56", "title": "Pooling layers commute with translations", "statement": "If the input of a pooling layer is moved by a multiple of the strides (zeros outside the signal), so is the output, wherever both positions are in the output; whether the call is accepted does not change.", "quantifier": "every channels_last pooling layer that can be built, every input, every translation", "why_tests_cant": "All inputs and translations; the tests only check the elements that fix the origin.", "anchors": ["groco/layers/pooling.py:GroupPooling.call", "groco/layers/group_transforms.py:GroupTransforms.subgroup_pooling", "groco/layers/group_transforms.py:GroupTransforms.merge_group_axis_and_pad"]}
{"id": "C57", "title": "Lifting layers of subgroups", "statement": "A lifting layer with group G and a subgroup can be built only if the lifting layer whose group is that subgroup can be built, and with the same kernel and bias both accept the same inputs and return the same outputs. A transposed lifting layer ignores its subgroup argument: layers that differ only in it agree on all inputs.", "quantifier": "all groups and subgroups, all arguments, all weights, all inputs", "why_tests_cant": "All groups, arguments, weights and inputs; no test compares layers of different groups.", "anchors": ["groco/layers/group_transforms.py:GroupTransforms._compute_transformed_kernel_indices", "groco/layers/conv2d.py:GroupConv2D", "groco/layers/conv2d_transpose.py:GroupConv2DTranspose", "groco/groups/wallpaper_groups.py:group_dict"]}
{"id": "C58", "title": "Pooling down a chain of subgroups", "statement": "Pooling from a group to a subgroup S (windows of one position) and from S to a smaller subgroup T returns the same as pooling from the group to T directly, with the same windows, and is accepted for the same inputs.", "quantifier": "every group, subgroup S, subgroup T of S, pooling type, window, padding, and input (channels_last)", "why_tests_cant": "All chains of subgroups and all inputs; the tests pool once.", "anchors": ["groco/groups/group.py:Group", "groco/groups/wallpaper_groups.py", "groco/groups/space_groups.py", "groco/layers/group_transforms.py:GroupTransforms.build_pool", "groco/layers/group_transforms.py:GroupTransforms.subgroup_pooling"]}
{"id": "C59", "title": "Subgroups are listed", "statement": "A library group whose symmetries are all symmetries of another library group can be used as its subgroup, i.e. its name is in the subgroup dictionary; every name listed is a library group with symmetries of the group only, and the subgroups of a listed subgroup are listed with the same elements.", "quantifier": "every pair of library groups; every chain of subgroups", "why_tests_cant": "The tests look at the tables entry by entry; which entries are absent is a statement about all groups and their geometric meaning.", "anchors": ["groco/groups/group.py:Group", "groco/groups/wallpaper_groups.py", "groco/groups/space_groups.py"]}
{"id": "C60", "title": "The spatial axes given are the ones acted on", "statement": "Group.action moves the signal along exactly the spatial axes given, in the order given; it is an error if their number is not the dimension of the group.", "quantifier": "every group, signal, choice of distinct spatial axes, position of the new axis", "why_tests_cant": "The tests use the usual consecutive axes; which axes a group really looks at is a statement about all choices and all signals.", "anchors": ["groco/groups/group.py:Group.action", "groco/groups/wallpaper_groups.py:P4M_action", "groco/groups/space_groups.py:Oh_action"]}
{"id": "C61", "title": "Spatial axes counted from the end", "statement": "spatial_axes may be negative, counting from the last axis of the signal as elsewhere in Python, with the same outcome as the non-negative axes.", "quantifier": "every group, signal, spatial axes, new_group_axis, group_axis, acting and domain group", "why_tests_cant": "The tests use non-negative axes only; equality of all outcomes for all signals.", "anchors": ["groco/groups/group.py:Group.action", "groco/groups/wallpaper_groups.py:P4M_action", "groco/groups/space_groups.py:Oh_action"]}
{"id": "C62", "title": "Layers and groups of different dimensions", "statement": "A layer for d-dimensional signals whose group acts on another number of dimensions cannot be built (the trivial group P1 excepted).", "quantifier": "every layer class, group of another dimension, arguments, input shape, weights", "why_tests_cant": "The tests never combine them; refusal for every configuration is not enumerable.", "anchors": ["groco/layers/group_transforms.py:GroupTransforms", "groco/layers/conv2d.py:GroupConv2D", "groco/layers/conv3d.py:GroupConv3D", "groco/layers/pooling.py:GroupPooling", "groco/groups/space_groups.py:Oh_action"]}
{"id": "C63", "title": "What the documentation says about shapes, names, tables and defaults", "statement": "Inputs of the documented shape are accepted and outputs have the documented shape; the groups of the README can be used under their names and have the orders given; the composition table is what the docstring of Group says; the defaults of Group.action mean what its docstring says.", "quantifier": "every layer, input, group, pair of elements, signal", "why_tests_cant": "Agreement of prose with every configuration and every table entry is not tested anywhere.", "anchors": ["groco/layers/conv2d.py:GroupConv2D", "groco/layers/conv2d_transpose.py:GroupConv2DTranspose", "groco/layers/conv3d_transpose.py:GroupConv3DTranspose", "groco/groups/group.py:Group", "groco/groups/group.py:Group.action", "README.md"]}
{"id": "C64", "title": "Equivariance on images that are not squares", "statement": "On images of any sizes (and volumes that are not cubes), channels_last layers built with allow_non_equivariance=False are equivariant under every element of their subgroup that maps the image to itself, in the configurations of C23, C24, C31 and C34: moving the input by the element moves the output by it; and the result of GlobalGroupPooling does not change.", "quantifier": "every layer, weights, image sizes, element, signal", "why_tests_cant": "The library's own check raises an error on such images (C65), so no test exercises them.", "anchors": ["groco/layers/conv2d.py:GroupConv2D", "groco/layers/conv3d.py:GroupConv3D", "groco/layers/conv2d_transpose.py:GroupConv2DTranspose", "groco/layers/pooling.py:GroupPooling", "groco/layers/pooling.py:GlobalGroupPooling", "groco/layers/padding.py:EquivariantPadding"]}
{"id": "C65", "title": "Acting with a subgroup on grids that it keeps", "statement": "A group can act with one of its subgroups on every grid that all elements of the subgroup map to itself, and check_equivariance can be used with such an acting group.", "quantifier": "every group, subgroup, grid, signal", "why_tests_cant": "Tests only act on squares and cubes.", "anchors": ["groco/groups/group.py:Group.action", "groco/groups/group.py:Group._action_on_grid", "groco/layers/equivariance.py:check_equivariance"]}
{"id": "C66", "title": "Transposed layers are the transposes of convolution layers", "statement": "Without bias and activation, and when nothing is padded, a transposed group convolution is the transpose (adjoint) of a group convolution with the same group, subgroup, kernel size, strides, dilation rates and padding, as Keras's Conv2DTranspose is of Conv2D: for suitable weights <conv(x), y> = <x, convT(y)> for all x and y; and every such group convolution is the transpose of a transposed layer.", "quantifier": "every group, subgroup, kernel size, strides, dilation rates, built-in padding, weights and all signals x, y of matching shapes", "why_tests_cant": "An identity between two layers for all weights and all pairs of signals, on kernels rearranged by index tables.", "anchors": ["groco/layers/group_transforms.py:GroupTransforms", "groco/layers/conv2d_transpose.py:GroupConv2DTranspose", "groco/layers/conv3d_transpose.py:GroupConv3DTranspose"]}
{"id": "C67", "title": "Layers compute exactly the equivariant convolutions", "statement": "Without bias, activation and padding, what a group convolution layer computes is an ordinary convolution (one output channel per element of the subgroup and filter) that commutes with the subgroup; every ordinary convolution of these sizes that commutes with the subgroup is computed by the layer for some weights; and these weights are unique. With any padding, a bias and an injective activation, the weights and the bias are still determined by what the layer computes on large enough images; so are the weights and the bias of a transposed layer.", "quantifier": "every group, subgroup, kernel size, strides, dilation rates, lifting or group-valued input, and every choice of weights of the ordinary convolution over any semiring", "why_tests_cant": "Quantifies over all equivariant convolutions; a layer that ties too many weights together is still equivariant and passes every equivariance test.", "anchors": ["groco/layers/group_transforms.py:GroupTransforms", "groco/layers/conv2d.py:GroupConv2D", "groco/layers/conv3d.py:GroupConv3D"]}
{"id": "C68", "title": "Plain padding is refused exactly where it breaks equivariance", "statement": "A convolution layer moves its output with its input for all weights exactly if its windows are moved into each other by the group. Consequently, with padding 'same' or 'valid' and allow_non_equivariance=False a layer is refused exactly if the layer one would get with allow_non_equivariance=True is not equivariant for some weights and input: nothing broken is accepted and nothing sound is refused.", "quantifier": "every group, subgroup, kernel size, strides, dilation rates, image size, allow_non_equivariance, all weights and all signals", "why_tests_cant": "The equivalence needs, for every refused configuration, weights and an input that break it, and for every accepted one that there are none.", "anchors": ["groco/layers/padding.py:EquivariantPadding", "groco/layers/group_transforms.py:GroupTransforms", "groco/layers/conv2d.py:GroupConv2D"]}
{"id": "C69", "title": "Exactly which transposed convolutions are equivariant", "statement": "A transposed convolution layer moves its output with its input for all weights exactly if the group moves the contributions of input positions to output positions into each other. Without dilation this holds exactly if, along every axis the subgroup mirrors, the stride is at most the kernel size, equally many zeros are added at both ends and, with 'same' or 'same_equiv', kernel size and stride have the same parity. This settles the question left open in tests/conv_test_base.py for which strides transposed layers are equivariant.", "quantifier": "every group, subgroup, kernel size, strides, padding option, image size, allow_non_equivariance, all weights and all signals", "why_tests_cant": "The equivalence needs, for every configuration outside the list, weights and an input that break equivariance, and for every one inside that there are none; the tests only try stride 3 because other strides failed for unknown reasons.", "anchors": ["groco/layers/padding.py:EquivariantPadding", "groco/layers/group_transforms.py:GroupTransforms", "groco/layers/conv2d.py:GroupConv2DTranspose", "tests/conv_test_base.py:test_padding_equiv"]}
{"id": "C70", "title": "Exactly which pooling layers are equivariant", "statement": "A group pooling layer moves its output with its input exactly if the group keeps the sizes of the output and moves the windows into each other: corresponding windows contain corresponding positions of the signal and, if they contain any, for the maximum both or none contain an added zero and for the mean they have equally many positions. A layer that adds no zeros is equivariant exactly if, along every axis the subgroup mirrors, equally many positions are left out at both ends and no positions remain, or every window covers the whole axis. With padding 'valid' or 'valid_equiv' and strides left at their default this means that the pool size divides the size of the signal.", "quantifier": "every group, subgroup, pool type, pool size, strides, padding option, signal size, allow_non_equivariance and all signals", "why_tests_cant": "The equivalence needs, for every configuration outside the list, a signal that breaks equivariance, and for every one inside that there is none.", "anchors": ["groco/layers/pooling.py:GroupPooling", "groco/layers/padding.py:EquivariantPadding", "groco/layers/group_transforms.py:GroupTransforms.subgroup_pooling"]}
{"id": "C71", "title": "Pooling with plain padding is refused exactly where it breaks equivariance", "statement": "With padding 'same' or 'valid' and allow_non_equivariance=False a group pooling layer is refused exactly if the layer one would get with allow_non_equivariance=True is not equivariant for some signal.", "quantifier": "every group, subgroup that reverses every axis, pool type, pool size, strides given or not, signal size and all signals", "why_tests_cant": "The equivalence needs, for every refused configuration, a signal that breaks it, and for every accepted one that there is none.", "anchors": ["groco/layers/pooling.py:GroupPooling", "groco/layers/padding.py:EquivariantPadding"]}
{"id": "C72", "title": "Networks with branches and normalisation", "statement": "A network made of equivariant group layers and Keras's own layers - activations, dropout in inference, normalisations along the channel axis, weights per channel computed from global averages, addition or another entrywise merge of branches, concatenation of branches along the channel axis - commutes with the group, however the layers are arranged. Followed by GlobalGroupPooling its output is invariant. With data_format channels_first the channel axis has to be given to Keras's layers: their default axis -1 is the group axis, and a layer that treats its entries differently breaks equivariance.", "quantifier": "every group, acting subgroup, data format, arrangement of layers, entrywise function and all signals", "why_tests_cant": "The arrangements of layers are unboundedly many; a test fixes one architecture, its weights and one signal.", "anchors": ["groco/layers/group_transforms.py:GroupTransforms", "groco/layers/conv.py:GroupConv", "groco/layers/pooling.py:GlobalGroupPooling", "tests/test_model.py"]}
{"id": "C73", "title": "Groups given as objects", "statement": "The argument group of a layer may be the name of a library group or a Group object. The name and the object of a library group give the same layer. A Group object made by the user, satisfying the group laws and acting on signals, can be used like those of the library.", "quantifier": "every library group, every Group object, subgroup argument, transposed or not", "why_tests_cant": "Tests use a few of the library groups; the set of objects a user can make is unbounded.", "anchors": ["groco/layers/group_transforms.py:GroupTransforms.__init__", "groco/groups/__init__.py:group_dict", "groco/groups/group.py:Group"]}
{"id": "C74", "title": "Layers in the usual configurations always work", "statement": "With odd kernels, padding 'same_equiv' and all other arguments at their defaults, convolution and transposed convolution layers are accepted on every non-empty grid the group acts on, keep its sizes and are equivariant; pooling layers with a pool size dividing the sizes are accepted, divide the sizes and are equivariant; more generally every layer whose windows fit and sample the grid symmetrically is accepted, returns and is equivariant. The model of tests/test_model.py accepts every input whose sizes are multiples of the pool sizes, divides the sizes by them, and check_equivariance returns zero.", "quantifier": "every group, grid size, kernel and pool size of the stated kind, number of channels and filters, batch size, weights, activation, input", "why_tests_cant": "tests/test_model.py runs one model with random weights on one 8 x 8 input on P4.", "anchors": ["tests/test_model.py:TestModel", "groco/layers/conv2d.py:GroupConv2D", "groco/layers/conv2d_transpose.py:GroupConv2DTranspose", "groco/layers/pooling.py:GroupPooling", "groco/utils/equivariance.py:check_equivariance"]}
{"id": "C75", "title": "Misuse is refused with a definite kind of exception", "statement": "The constructor of a convolution or pooling layer raises KeyError for an unknown or missing subgroup, otherwise TypeError for a padding string the padding layer does not know, otherwise ValueError for a padding string or for sizes that Keras does not accept, and otherwise succeeds. The constructor of groups raises AttributeError if neither the tables nor a parent are given, KeyError if the parent has no subgroup of that name or the elements it lists are not closed under composition or the order is too small, IndexError if the order is too large, IndexError if an element has no inverse; a group without action raises AttributeError when acting. Group.action raises KeyError for an unknown acting or domain group and by default acts on the axes 1 and 2 and puts the group along a new first axis. Building a layer whose group axis is right but which cannot sample some axis symmetrically raises ValueError (with 'same_equiv' AttributeError), and so does a kernel that is too long or no grid of the group. A built layer called with too few axes or another number of channels raises ValueError and is unchanged. split_axes and merge_axes raise IndexError for an axis that does not exist, ZeroDivisionError for factor zero, ValueError for a factor that does not divide the size. check_equivariance raises ValueError if the result of the layer is empty or has sizes depending on the batch.", "quantifier": "every argument of the constructors, every signal, axis and factor, every library group or user group, every layer passed to check_equivariance", "why_tests_cant": "A test tries one wrong argument at a time; the claim is that the exceptions partition all arguments, in a definite order.", "anchors": ["groco/layers/group_transforms.py:GroupTransforms.__init__", "groco/layers/padding.py:EquivariantPadding.__init__", "groco/groups/group.py:Group", "groco/utils/tensor_manips.py", "groco/utils/equivariance.py:check_equivariance"]}
{"id": "C76", "title": "Calls that overlap in time", "statement": "If several threads call built convolution layers, then in whatever order the threads take their turns, every call that is finished returned what it returns when made alone, and when no call is in progress every layer has the attributes it had before.", "quantifier": "every family of built layers, every family of calls, every interleaving of their attribute accesses", "why_tests_cant": "A race shows only in particular interleavings, which a test cannot choose; with a silent wrong result it may pass unnoticed for any number of runs.", "anchors": ["groco/utils/misc.py:backup_and_restore", "groco/layers/conv2d.py:GroupConv2D.call", "groco/layers/conv3d.py:GroupConv3D.call"]}
{"id": "C77", "title": "Outputs depend on their receptive field only", "statement": "If two signals of the same shape agree, for one batch entry, on the grid positions in the receptive field of an output position, then the outputs of a channels_last group convolution, transposed group convolution or group pooling layer agree at that position for that batch entry, for all group elements and channels. For a convolution the receptive field of position p along an axis is the extent of the dilated kernel from p times the stride minus the zeros before the signal on, for pooling likewise with the pool size. The receptive field of a stack has size one plus the sum over the layers of (size minus one) times the product of the strides of the layers before, and its stride is the product of the strides.", "quantifier": "every group, subgroup, kernel, stride, dilation, padding, weights, all signals of all sizes, stacks of any length", "why_tests_cant": "Independence of everything outside a window is a statement about all pairs of inputs; leaks (from other batch entries or far away pixels) need not show on sampled inputs.", "anchors": ["groco/layers/conv2d.py:GroupConv2D.call", "groco/layers/conv3d.py:GroupConv3D.call", "groco/layers/group_transforms.py:GroupTransforms", "groco/layers/padding.py:EquivariantPadding"]}
{"id": "C78", "title": "The networks of the example notebook", "statement": "The network of notebooks/example_MNIST.ipynb (two group convolutions, 2 x 2 group pooling, two group convolutions, Keras's global 3D pooling, a dense layer with softmax) is invariant: it gives the same class scores for an image and for all its transformed copies, also when the copies are passed as one batch as the notebook does. Its variant that goes down to subgroups by pooling is invariant under the elements of the last subgroup. check_equivariance of its first layer is zero. Keras's global 3D pooling gives what GroCo's global group pooling gives.", "quantifier": "every group in the plane in place of P4M, every chain of subgroups in place of P4M, P2MM, PMw, all numbers of filters, all weights, all activations and last layers, all images and batches of the sizes for which the pooling divides", "why_tests_cant": "The notebook shows the scores of one image with one set of trained weights; invariance is a statement about all weights and images.", "anchors": ["notebooks/example_MNIST.ipynb", "groco/layers/conv2d.py:GroupConv2D.call", "groco/layers/pooling.py:GroupPooling", "groco/utils/equivariance.py:check_equivariance"]}
{"id": "C79", "title": "Models built layer by layer before there are data", "statement": "If layers can be applied one after the other to a batch, then keras.Sequential (or the functional interface) can build a model of them for inputs of that size, and the model computes what the layers compute one after the other; in particular it is equivariant if they are. Every layer is built on the size of the signals it will get.", "quantifier": "every list of group convolutions, group transposed convolutions, group pooling layers and other layers, all their arguments and weights, all input sizes, batches and data", "why_tests_cant": "The tests call single layers on tensors, so each layer is built on the shape of real data; models chain the shapes that layers announce, and whether all chains agree with the computed shapes is a statement about all configurations.", "anchors": ["groco/layers/conv2d.py:GroupConv2D.compute_output_shape", "groco/layers/conv2d.py:GroupConv2D.build", "groco/layers/padding.py:EquivariantPadding.build", "groco/layers/pooling.py:GroupPooling"]}
{"id": "C80", "title": "Augmentation with transformed images changes nothing", "statement": "In a batch every image is treated by itself: if each image is transformed by a group element of its own, each output of a stack of equivariant layers is transformed by that element. Hence for the invariant networks of the example notebook the outputs do not change, for any weights, and training on images transformed at random gives exactly the weights that training on the original images gives.", "quantifier": "all stacks of equivariant layers, all batches, all choices of an element for every image; for training all update rules that see the model through its outputs as a function of the weights, all sequences of batches, all initial weights", "why_tests_cant": "Tests transform whole batches by one element with one set of weights; training is a statement about the outputs as functions of all weights, and about unboundedly many steps.", "anchors": ["notebooks/example_MNIST.ipynb", "groco/layers/conv2d.py:GroupConv2D.call", "groco/layers/pooling.py:GroupPooling", "groco/groups/group.py:Group.action"]}
{"id": "C81", "title": "Transposed layers with output_padding", "statement": "The transposed layers take all arguments of the Keras layers, output_padding among them. A transposed layer that is accepted with allow_non_equivariance=False and is equivariant stays equivariant if output_padding is given. In detail: along every axis the subgroup mirrors, equally many zeros have to be added at both ends and output_padding has to be zero with 'valid'/'valid_equiv', even and at most the size of the kernel with 'same'/'same_equiv'; then the layer is equivariant for all weights whatever the stride, otherwise not for some weights. Leaving output_padding out is the same as giving the value Keras chooses.", "quantifier": "all groups, subgroups, sizes, kernels, strides, paddings, weights, inputs and values of output_padding below the strides", "why_tests_cant": "No test passes output_padding; whether a configuration is equivariant for all weights is a statement about infinitely many weights, sizes and strides.", "anchors": ["groco/layers/conv2d_transpose.py:GroupConv2DTranspose.__init__", "groco/layers/conv3d_transpose.py:GroupConv3DTranspose.__init__", "groco/layers/group_transforms.py:GroupTransforms.__init__", "groco/layers/padding.py:EquivariantPadding.__init__"]}
{"id": "C82", "title": "Arguments reach the part of the layer they are meant for", "statement": "A group layer takes the arguments of the Keras layer it stands for ('all Conv2D args') in addition to group, subgroup, allow_non_equivariance and the two new paddings. A call by keywords is accepted exactly if the required arguments are there and every name is one of these; each argument of Keras arrives there with the value given, whatever the order; the group operations get group, subgroup, kernel size and data format, the padding layer kernel size, strides and padding; arguments every Keras layer has (name, dtype, trainable) apply to the group layer itself; positional arguments mean what they mean for the Keras layer; a layer named after a group (P4Conv2D) is a layer on that group.", "quantifier": "all layer classes and all calls: any number of positional arguments, any names and values of keyword arguments in any order", "why_tests_cant": "The tests call the layers with a few fixed combinations of keywords; which arguments are lost, refused or given to the wrong part is a question about all combinations.", "anchors": ["groco/layers/conv2d.py:GroupConv2D.__init__", "groco/layers/conv3d.py:GroupConv3D.__init__", "groco/layers/conv2d_transpose.py:GroupConv2DTranspose.__init__", "groco/layers/pooling.py:GroupPooling.__init__", "groco/layers/pooling.py:GlobalGroupPooling.__init__", "groco/layers/group_transforms.py:GroupTransforms.__init__", "groco/layers/padding.py:EquivariantPadding.__init__"]}
{"id": "C83", "title": "Layers with transformed weights", "statement": "If the kernel of a built group convolution layer is replaced by the kernel transformed with an element e of its subgroup, as computed by the method action of the group (for group-valued inputs with the channel axis reshaped into group elements and channels), the layer accepts the same inputs and computes the same outputs up to the order of the group elements: the new output at h is the old output at h e. Every kernel can be transformed so, and a layer followed by global group pooling does not change at all.", "quantifier": "all groups, subgroups, elements, kernel sizes, strides, dilations, paddings, weights, activations and inputs, with or without a group axis", "why_tests_cant": "The tests never change the weights of a layer by the action of the group; the claim ties the indices used for the kernel to the method action for all elements, weights and inputs at once.", "anchors": ["groco/layers/group_transforms.py:GroupTransforms.transform_kernel", "groco/layers/group_transforms.py:GroupTransforms._compute_transformed_kernel_indices", "groco/groups/group.py:Group.action", "groco/layers/conv2d.py:GroupConv2D.call", "groco/layers/conv3d.py:GroupConv3D.call"]}
{"id": "C84", "title": "Pooling keeps the order of signals and does not amplify differences", "statement": "If no entry of a signal is above that of another signal of the same shape, a pooling layer, global or not, accepts both or neither, and no entry of the result for the first is above that for the second; if the entries differ by at most e, so do those of the results. The average is nowhere above the maximum computed with the same arguments. A group convolution, transposed or not, whose kernel has no negative entries and whose activation is monotone keeps the order of signals.", "quantifier": "all groups, subgroups, pool sizes, strides, paddings, data formats, weights, shapes and signals over an ordered field (an ordered semiring for convolutions)", "why_tests_cant": "The tests compare the result for one random signal with that of the transformed signal; they never compare results for different signals, and a bound on all differences is about all pairs of signals.", "anchors": ["groco/layers/pooling.py:GroupPooling.call", "groco/layers/pooling.py:GlobalGroupPooling.call", "groco/layers/group_transforms.py:GroupTransforms.subgroup_pooling", "groco/layers/padding.py:EquivariantPadding.call", "groco/layers/conv2d.py:GroupConv2D.call"]}
