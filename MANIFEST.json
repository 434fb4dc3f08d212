{
 "claims": [
  {
   "property": "C01",
   "status": "proved",
   "theorems": [
    "GroCo.C01_group_laws"
   ],
   "note": "all 11 groups"
  },
  {
   "property": "C02",
   "status": "proved",
   "theorems": [
    "GroCo.C02_left_action"
   ],
   "note": "all groups, grids, axes"
  },
  {
   "property": "C03",
   "status": "proved",
   "theorems": [
    "GroCo.C03_rigid_motion"
   ],
   "note": ""
  },
  {
   "property": "C04",
   "status": "partial",
   "theorems": [
    "GroCo.C04_grid_partial",
    "GroCo.C04_violation_cuboid"
   ],
   "note": "violated by D4h and D4 (and their 3D subgroups) on cuboids: negation proved; everything else proved"
  },
  {
   "property": "C05",
   "status": "proved",
   "theorems": [
    "GroCo.C05_regular_representation",
    "GroCo.C05_left_action"
   ],
   "note": ""
  },
  {
   "property": "C06",
   "status": "proved",
   "theorems": [
    "GroCo.C06_subgroup_slices_grid",
    "GroCo.C06_subgroup_slices_group",
    "GroCo.C06_subgroup_object"
   ],
   "note": ""
  },
  {
   "property": "C07",
   "status": "proved",
   "theorems": [
    "GroCo.C07_zero_outside_domain",
    "GroCo.C06_subgroup_object"
   ],
   "note": ""
  },
  {
   "property": "C08",
   "status": "proved",
   "theorems": [
    "GroCo.C08_upsample"
   ],
   "note": ""
  },
  {
   "property": "C09",
   "status": "proved",
   "theorems": [
    "GroCo.C09_derived_group",
    "GroCo.C09_all_groups"
   ],
   "note": "arbitrary parent group; every library group is a good parent"
  },
  {
   "property": "C10",
   "status": "proved",
   "theorems": [
    "GroCo.C10_derived_cosets",
    "GroCo.C10_cosets"
   ],
   "note": ""
  },
  {
   "property": "C11",
   "status": "partial",
   "theorems": [
    "GroCo.C11_merge_axes_partial",
    "GroCo.C11_exact",
    "GroCo.C11_violation"
   ],
   "note": "false for axes counted from different ends (one negative, one not): negation proved; proved for all axes counted from the same end; C11_exact gives, for every rank and pair of axes, exactly when merge_axes is right for all tensors: the axes as written are in the order of the axes they mean"
  },
  {
   "property": "C12",
   "status": "proved",
   "theorems": [
    "GroCo.C12_split_merge",
    "GroCo.C12_merge_split",
    "GroCo.C12_split_refused"
   ],
   "note": ""
  },
  {
   "property": "C13",
   "status": "partial",
   "theorems": [
    "GroCo.C13_move_axis_partial",
    "GroCo.C13_exact",
    "GroCo.C13_violation"
   ],
   "note": "same restriction as C11, with negation, and exact condition on the axes"
  },
  {
   "property": "C14",
   "status": "proved",
   "theorems": [
    "GroCo.C14_index_tensor",
    "GroCo.C14_roundtrip"
   ],
   "note": "int32 range of index tensors not modelled"
  },
  {
   "property": "C15",
   "status": "proved",
   "theorems": [
    "GroCo.C15_merge_unknown_batch",
    "GroCo.C15_split_unknown_batch",
    "GroCo.C15_unknown_axis"
   ],
   "note": ""
  },
  {
   "property": "C16",
   "status": "proved",
   "theorems": [
    "GroCo.C16_valid_equiv_symmetric"
   ],
   "note": ""
  },
  {
   "property": "C17",
   "status": "proved",
   "theorems": [
    "GroCo.C17_same_equiv_symmetric"
   ],
   "note": ""
  },
  {
   "property": "C18",
   "status": "proved",
   "theorems": [
    "GroCo.C18_minimal"
   ],
   "note": "Minimality is with respect to the padding Keras adds to the unpadded axis, which is also proved to be what it adds to the padded one."
  },
  {
   "property": "C19",
   "status": "partial",
   "theorems": [
    "GroCo.C19_refused_partial",
    "GroCo.C19_violation"
   ],
   "note": "Building fails exactly when no symmetric padding exists; the exception is a ValueError for valid_equiv, but an AttributeError for same_equiv (C19_violation)."
  },
  {
   "property": "C20",
   "status": "proved",
   "theorems": [
    "GroCo.C20_refused",
    "GroCo.C20_allowed"
   ],
   "note": ""
  },
  {
   "property": "C21",
   "status": "partial",
   "theorems": [
    "GroCo.C21_channels_first_partial",
    "GroCo.C21_call_pads",
    "GroCo.C21_violation"
   ],
   "note": "The padding layer itself treats channels_first exactly like channels_last (proved). Inside the group layers the data format is not passed on, so that it pads the channel axis: witness proved."
  },
  {
   "property": "C22",
   "status": "proved",
   "theorems": [
    "GroCo.C22_group_convolution",
    "GroCo.C22_channels_first"
   ],
   "note": "channels_last; the formula, the zeros around the grid and the exact condition for the call to return. C22_channels_first: the same for channels_first layers that pad nothing themselves (for the others the padding goes to the wrong axes, see C30)."
  },
  {
   "property": "C23",
   "status": "proved",
   "theorems": [
    "GroCo.C23_lifting_equivariant"
   ],
   "note": "Undilated channels_last layers; dilation, anisotropic strides and channels_first are the subject of C25 and C30."
  },
  {
   "property": "C24",
   "status": "proved",
   "theorems": [
    "GroCo.C24_group_equivariant"
   ],
   "note": "Undilated channels_last layers; dilation, anisotropic strides and channels_first are the subject of C25 and C30."
  },
  {
   "property": "C25",
   "status": "partial",
   "theorems": [
    "GroCo.C25_refused_or_equivariant_partial",
    "GroCo.C25_exact",
    "GroCo.C25_configurations",
    "GroCo.C25_violation_strides",
    "GroCo.C25_violation_dilation",
    "GroCo.C25_violation_channels_first",
    "GroCo.C25_channels_first",
    "GroCo.C25_violation_last_axis"
   ],
   "note": "As stated it is false: four witnesses (strides, dilation, channels_first with padding, channels_first without). Proved for channels_last layers with strides that the group may exchange and dilation rates that keep the sampling symmetric. C25_exact: for channels_last and images larger than the windows, exactly which accepted configurations are broken: those with different strides or dilation rates along exchanged axes, or an even dilation rate with an even kernel and zeros along a reversed axis. C25_configurations: the same for every configuration, accepted or not. C25_channels_first: the same for channels_first layers that do not pad."
  },
  {
   "property": "C26",
   "status": "proved",
   "theorems": [
    "GroCo.C26_identity_slice",
    "GroCo.C26_channels_first"
   ],
   "note": "channels_last layers; the ordinary layer is applied to the input after the padding layer. C26_channels_first: channels_first layers that pad nothing themselves."
  },
  {
   "property": "C27",
   "status": "proved",
   "theorems": [
    "GroCo.C27_weights_shared"
   ],
   "note": "both data formats"
  },
  {
   "property": "C28",
   "status": "partial",
   "theorems": [
    "GroCo.C28_output_shape_partial",
    "GroCo.C28_whole_group_iff",
    "GroCo.C28_exact",
    "GroCo.C28_transposed_exact",
    "GroCo.C28_transposed_partial",
    "GroCo.C28_violation_subgroup",
    "GroCo.C28_violation_padding",
    "GroCo.C28_violation_argument",
    "GroCo.C28_unpadded",
    "GroCo.C28_unpadded_transposed"
   ],
   "note": "False as stated: three witnesses (proper subgroup, padding layer, argument ignored). Proved for configurations whose padding layer has nothing to add, on the sizes the layer was built on: convolutions announce the right shape exactly if they are on the whole group, transposed layers always. C28_exact: channels_last convolutions with any padding, strides and dilation announce the shape of their output exactly if they are on the whole group and the padding layer has nothing to add on these sizes. C28_transposed_exact: channels_last transposed layers announce it exactly if the padding layer has nothing to add. Missing: channels_first layers that pad. C28_unpadded, C28_unpadded_transposed: the criterion for layers of either data format that pad nothing on the sizes they were built on."
  },
  {
   "property": "C29",
   "status": "partial",
   "theorems": [
    "GroCo.C29_calls_pure_partial",
    "GroCo.C29_exact",
    "GroCo.C29_violation",
    "GroCo.C29_violation_silent"
   ],
   "note": "False as stated: when Keras raises inside the call the transformed kernel is not restored (witness with a silently wrong next result). Proved for all sequences of calls that return or raise before that point; C29_exact shows that this is exactly when the layer is unchanged, for every layer acting with more than one element, and what it is after any other call."
  },
  {
   "property": "C30",
   "status": "partial",
   "theorems": [
    "GroCo.C30_channels_first_partial",
    "GroCo.C30_equivariant_partial",
    "GroCo.C30_violation",
    "GroCo.C30_unpadded_partial",
    "GroCo.C30_transposed_partial",
    "GroCo.C30_pooling_partial",
    "GroCo.C30_convolution_equivariant_partial",
    "GroCo.C30_transposed_equivariant_partial",
    "GroCo.C30_pooling_equivariant_partial",
    "GroCo.C30_moves_partial",
    "GroCo.C30_moves_transposed_partial",
    "GroCo.C30_moves_pooling_partial",
    "GroCo.C30_plain",
    "GroCo.C30_plain_transposed",
    "GroCo.C30_plain_pooling",
    "GroCo.C30_plain_output_padding"
   ],
   "note": "False as stated (C30_violation, also C21_violation and C25_violation_channels_first). Proved for convolution, transposed and pooling layers of which neither the layer nor its channels_last version pads (always so for 'same', 'valid', and strides 1 with odd kernels or 'valid_equiv'): same values up to moving the channel axis, and equivariance carries over from channels_last. The C30_moves theorems say that of two such layers each is equivariant for the same elements as the other. C30_plain, C30_plain_transposed and C30_plain_pooling need nothing about a channels_last version: every channels_first layer that pads nothing computes what the channels_last layer with Keras's own padding and allow_non_equivariance=True computes."
  },
  {
   "property": "C31",
   "status": "partial",
   "theorems": [
    "GroCo.C31_transpose_equivariant_partial",
    "GroCo.C31_documented_configurations_partial",
    "GroCo.C31_violation",
    "GroCo.C30_transposed_equivariant_partial"
   ],
   "note": "Proved for channels_last configurations that are symmetric (stride at most the kernel size, even cropping for 'same'), which include the README's cases except stride 1 with 'same_equiv' and an even kernel; that case is accepted by the library and not equivariant (C31_violation). Same for channels_first layers that pad nothing."
  },
  {
   "property": "C32",
   "status": "partial",
   "theorems": [
    "GroCo.C32_transposed_kernel_partial",
    "GroCo.C32_single_channel_partial",
    "GroCo.C32_violation_order",
    "GroCo.C32_violation_identity",
    "GroCo.C32_violation_zero",
    "GroCo.C32_exact"
   ],
   "note": "False as stated: the stored kernel is read with filters and channels confused, and outside the subgroup the first stored weight is used instead of zero (violations). Proved: exactly what kernel is used, and the claim for a single filter or channel on the whole group or grid. C32_exact: for which numbers of filters and channels and which subgroups the claim holds for all weights."
  },
  {
   "property": "C33",
   "status": "proved",
   "theorems": [
    "GroCo.C33_subgroup_pooling",
    "GroCo.C33_uniform",
    "GroCo.C33_group_pooling",
    "GroCo.C33_maximum",
    "GroCo.C33_average",
    "GroCo.C33_channels_first"
   ],
   "note": "Coset sums for both data formats; the whole layer, including when a call succeeds, for channels_last, with cosets and windows that do not depend on the signal (C33_uniform). C33_channels_first: the whole layer for channels_first layers that pad nothing themselves."
  },
  {
   "property": "C34",
   "status": "partial",
   "theorems": [
    "GroCo.C34_pooling_equivariant_partial",
    "GroCo.C34_violation_default_strides",
    "GroCo.C34_violation_same_equiv",
    "GroCo.C34_violation_oblong",
    "GroCo.C30_pooling_equivariant_partial"
   ],
   "note": "False as stated: strides left at their default, same_equiv with an odd total padding, and pool sizes that differ along exchanged axes. Proved for the remaining channels_last configurations, and for channels_first layers that pad nothing."
  },
  {
   "property": "C35",
   "status": "proved",
   "theorems": [
    "GroCo.C35_value",
    "GroCo.C35_indices",
    "GroCo.C35_invariant",
    "GroCo.C35_build"
   ],
   "note": "Values, invariance and building, both data formats, with and without keepdims."
  },
  {
   "property": "C36",
   "status": "proved",
   "theorems": [
    "GroCo.C36_value",
    "GroCo.C36_sound_and_complete",
    "GroCo.C36_signal_refused",
    "GroCo.C36_output_refused",
    "GroCo.C36_unknown_domain",
    "GroCo.C36_layer_error",
    "GroCo.C36_default_group_axis",
    "GroCo.C36_layers_batchwise",
    "GroCo.C36_pooling_batchwise",
    "GroCo.C36_channels_first_batchwise",
    "GroCo.C36_channels_first_pooling_batchwise"
   ],
   "note": "Proved for any layer that treats batch entries independently (Batchwise), over an ordered field; empty results are an error in the model. The channels_last convolution, transposed convolution and pooling layers are shown to be Batchwise. So are channels_first layers that pad nothing themselves."
  },
  {
   "property": "C37",
   "status": "proved",
   "theorems": [
    "GroCo.C37_stack_equivariant",
    "GroCo.C37_stack_invariant",
    "GroCo.C37_convolution_layer",
    "GroCo.C37_pooling_layer",
    "GroCo.C37_transposed_layer",
    "GroCo.C37_channels_first_convolution",
    "GroCo.C37_channels_first_pooling",
    "GroCo.C37_channels_first_transposed"
   ],
   "note": "Any number of layers, both data formats, any listed group acting; the channels_last convolution, transposed convolution and pooling layers are shown to be such layers under the conditions of C25, C31 and C34, also when they are defined on a subgroup of the group of the stack. C37_channels_first_convolution, C37_channels_first_transposed and C37_channels_first_pooling: channels_first layers that, like their channels_last versions, pad nothing."
  },
  {
   "property": "C38",
   "status": "partial",
   "theorems": [
    "GroCo.C38_violation_get_config",
    "GroCo.C38_violation",
    "GroCo.C38_global_pooling_partial",
    "GroCo.C38_rebuild_partial",
    "GroCo.C38_rebuild_transforms_partial",
    "GroCo.C38_violation_rebuild_pooling",
    "GroCo.C38_violation_rebuild_convolution",
    "GroCo.C38_violation_rebuild",
    "GroCo.C38_rebuild_with_group_axis",
    "GroCo.C38_violation_dimensions",
    "GroCo.C38_group_entries_partial"
   ],
   "note": "get_config raises AttributeError for every convolution and pooling layer (violated), and its key dimensions would be refused by the constructors; global pooling round-trips. Building again is proved unchanged with channels first or without group axis; with channels last and a group axis it raises IndexError (violated). C38_group_entries_partial: the entries group and subgroup are right."
  },
  {
   "property": "C39",
   "status": "partial",
   "theorems": [
    "GroCo.C39_violation_upper_case",
    "GroCo.C39_options_partial",
    "GroCo.C39_documented_names",
    "GroCo.C39_violation_none",
    "GroCo.C39_violation_none_documented",
    "GroCo.C39_empty_is_whole",
    "GroCo.C39_unknown_subgroup",
    "GroCo.C39_subgroup_listed_partial",
    "GroCo.C39_subgroup_listed_pooling",
    "GroCo.C39_violation_transposed",
    "GroCo.C39_padding_layer",
    "GroCo.C39_violation_dotless"
   ],
   "note": "Violated for upper case _EQUIV, for subgroup None, for transposed layers on grid inputs, and for the padding layer alone with a dotless i; exact sets of strings accepted by layers and by the padding layer proved."
  },
  {
   "property": "C40",
   "status": "partial",
   "theorems": [
    "GroCo.C40_violation",
    "GroCo.C40_negative_axis_partial"
   ],
   "note": "Violated for signals on the grid in two dimensions with the new axis behind a spatial axis: witness in C40_violation. C40_negative_axis_partial proves it in all other cases, errors included."
  },
  {
   "property": "C41",
   "status": "proved",
   "theorems": [
    "GroCo.C41_transposed_convolution",
    "GroCo.C41_channels_first"
   ],
   "note": "channels_last. C41_channels_first: channels_first layers that pad nothing themselves."
  },
  {
   "property": "C42",
   "status": "partial",
   "theorems": [
    "GroCo.C42_violation",
    "GroCo.C42_channels_pooled"
   ],
   "note": "False: grid signals are accepted and their channels are pooled as if they were group elements."
  },
  {
   "property": "C43",
   "status": "proved",
   "theorems": [
    "GroCo.C43_convolution",
    "GroCo.C43_pooling"
   ],
   "note": "As an equivalence, for convolutions, transposed convolutions and pooling, in both data formats."
  },
  {
   "property": "C44",
   "status": "proved",
   "theorems": [
    "GroCo.C44_convolution",
    "GroCo.C44_transposed",
    "GroCo.C44_pooling"
   ],
   "note": "As equivalences, for convolutions, transposed convolutions and pooling."
  },
  {
   "property": "C45",
   "status": "proved",
   "theorems": [
    "GroCo.C45_subgroup_slices",
    "GroCo.C45_built_alike",
    "GroCo.C45_channels_first"
   ],
   "note": "Outputs agree at common elements, same inputs accepted, built alike. C45_channels_first: channels_first layers that pad nothing themselves."
  },
  {
   "property": "C46",
   "status": "proved",
   "theorems": [
    "GroCo.C46_translation_equivariant",
    "GroCo.C46_transposed",
    "GroCo.C46_channels_first",
    "GroCo.C46_channels_first_transposed"
   ],
   "note": "Zero-extended signals moved by multiples of the strides; transposed layers move the result by strides times the translation. C46_channels_first: channels_first layers that pad nothing themselves."
  },
  {
   "property": "C47",
   "status": "partial",
   "theorems": [
    "GroCo.C47_convolution_partial",
    "GroCo.C47_pooling_partial",
    "GroCo.C47_violation_list",
    "GroCo.C47_violation_data_format",
    "GroCo.C47_violation_none_strides",
    "GroCo.C47_unknown_group"
   ],
   "note": "Fails for lists where padding is needed, for data_format left out with Keras configured for channels_first, and for strides=None in pooling layers; holds in all other cases."
  },
  {
   "property": "C48",
   "status": "partial",
   "theorems": [
    "GroCo.C48_groups_one",
    "GroCo.C48_grouped_partial",
    "GroCo.C48_exact",
    "GroCo.C48_violation"
   ],
   "note": "with groups=1 nothing changes, and it is proved what is computed for every number of groups and which numbers are refused; equivariance fails (C48_violation), and exactly when it holds is proved (C48_exact: trivial subgroup, or groups=1 and windows moved into each other)"
  },
  {
   "property": "C49",
   "status": "partial",
   "theorems": [
    "GroCo.C49_convolution_partial",
    "GroCo.C49_transposed",
    "GroCo.C49_pooling_partial",
    "GroCo.C49_pooling_surplus",
    "GroCo.C49_violation_convolution",
    "GroCo.C49_violation_pooling"
   ],
   "note": "transposed layers refuse every other number, convolutions every number that is not a suitable multiple, pooling layers every smaller number; the rest is accepted (violations). Proved for channels_last, pooling for both data formats"
  },
  {
   "property": "C50",
   "status": "partial",
   "theorems": [
    "GroCo.C50_all_known",
    "GroCo.C50_convolution_partial",
    "GroCo.C50_pooling_partial",
    "GroCo.C50_two_unknown",
    "GroCo.C50_two_unknown_pooling",
    "GroCo.C50_violation"
   ],
   "note": "Proved for all known sizes and for one unknown size, in both data formats (pooling: channels_last or not padding); with two or more unknown sizes every traced call is proved to raise (violation)."
  },
  {
   "property": "C51",
   "status": "proved",
   "theorems": [
    "GroCo.C51_group_dict",
    "GroCo.C51_entries"
   ],
   "note": "Every string; the dictionaries as lists of name and group."
  },
  {
   "property": "C52",
   "status": "partial",
   "theorems": [
    "GroCo.C52_violation",
    "GroCo.C52_refused_partial"
   ],
   "note": "False as stated: trivial acting group. Proved: any other acting group is refused with an error."
  },
  {
   "property": "C53",
   "status": "proved",
   "theorems": [
    "GroCo.C53_assign",
    "GroCo.C53_history",
    "GroCo.C53_results"
   ],
   "note": "Histories of returning calls and assignments; calls that raise leave the attributes replaced (C29)."
  },
  {
   "property": "C54",
   "status": "proved",
   "theorems": [
    "GroCo.C54_linear_input",
    "GroCo.C54_linear_weights",
    "GroCo.C54_average_pooling",
    "GroCo.C54_global_average_pooling"
   ],
   "note": "All layers that can be built, both data formats, all paddings."
  },
  {
   "property": "C55",
   "status": "partial",
   "theorems": [
    "GroCo.C55_range_partial",
    "GroCo.C55_global_range",
    "GroCo.C55_maximum_partial",
    "GroCo.C55_activation_partial",
    "GroCo.C55_global_activation",
    "GroCo.C55_violation",
    "GroCo.C55_exact"
   ],
   "note": "Fails where the layer adds zeros (C55_violation), and only there: C55_exact. Proved for layers that add no zeros or ranges containing zero, and for global pooling."
  },
  {
   "property": "C56",
   "status": "partial",
   "theorems": [
    "GroCo.C56_translation_partial",
    "GroCo.C56_windows",
    "GroCo.C56_violation",
    "GroCo.C56_channels_first",
    "GroCo.C56_maximum_partial",
    "GroCo.C56_channels_first_maximum_partial"
   ],
   "note": "Violated with padding same (C56_violation); proved for valid and valid_equiv. C56_windows: for every padding the output moves with the signal at the positions where both windows have the same offsets inside the extended signal. C56_channels_first: the same for channels_first layers that pad nothing themselves. C56_maximum_partial: with every padding it holds for the maximum of signals without negative entries; C56_channels_first_maximum_partial: also for channels_first layers that pad nothing themselves."
  },
  {
   "property": "C57",
   "status": "proved",
   "theorems": [
    "GroCo.C57_lifting",
    "GroCo.C57_built",
    "GroCo.C57_transposed",
    "GroCo.C57_channels_first"
   ],
   "note": "channels_last layers. C57_channels_first: channels_first lifting layers that pad nothing themselves."
  },
  {
   "property": "C58",
   "status": "partial",
   "theorems": [
    "GroCo.C58_stages_partial",
    "GroCo.C58_violation_PMw",
    "GroCo.C58_violation_PMh",
    "GroCo.C58_violation_D4"
   ],
   "note": "Violated for three chains of subgroups; proved for all others."
  },
  {
   "property": "C59",
   "status": "partial",
   "theorems": [
    "GroCo.C59_complete_partial",
    "GroCo.C59_violation",
    "GroCo.C59_sound",
    "GroCo.C59_nested"
   ],
   "note": "P2 is not listed in P2MM; all other inclusions are listed, listed subgroups are sound and nested"
  },
  {
   "property": "C60",
   "status": "partial",
   "theorems": [
    "GroCo.C60_axes_partial",
    "GroCo.C60_violation",
    "GroCo.C60_following",
    "GroCo.C60_number"
   ],
   "note": "2D groups act on the axes given; 3D groups look at the first axis only"
  },
  {
   "property": "C61",
   "status": "partial",
   "theorems": [
    "GroCo.C61_from_end_partial",
    "GroCo.C61_refused",
    "GroCo.C61_violation_grid",
    "GroCo.C61_violation_group"
   ],
   "note": "holds for 2D groups when the new axis (group axis) comes before the spatial axes; refused in 3D"
  },
  {
   "property": "C62",
   "status": "partial",
   "theorems": [
    "GroCo.C62_three_partial",
    "GroCo.C62_two_partial",
    "GroCo.C62_violation_convolution",
    "GroCo.C62_violation_pooling",
    "GroCo.C62_two_group_partial",
    "GroCo.C62_two_group_small_partial"
   ],
   "note": "3D convolutions check; 2D convolutions only if the kernel is not as high and wide as there are channels (or, with a group axis, group elements); pooling layers do not"
  },
  {
   "property": "C63",
   "status": "partial",
   "theorems": [
    "GroCo.C63_convolution",
    "GroCo.C63_violation_transposed",
    "GroCo.C63_names_partial",
    "GroCo.C63_violation_name",
    "GroCo.C63_composition",
    "GroCo.C63_violation_defaults",
    "GroCo.C63_violation_acting"
   ],
   "note": "Convolutions and the README's groups other than PMv are as documented; transposed layers, PMv, the composition table and the defaults of Group.action are not (violations)"
  },
  {
   "property": "C64",
   "status": "proved",
   "theorems": [
    "GroCo.C64_moved_signal",
    "GroCo.C64_convolution",
    "GroCo.C64_transposed",
    "GroCo.C64_pooling",
    "GroCo.C64_global_pooling"
   ],
   "note": "Convolutions without dilation; transposed layers and pooling in the configurations of C31 and C34 (outside of them equivariance fails already on squares). C64_moved_signal: the moved signal exists and is unique."
  },
  {
   "property": "C65",
   "status": "partial",
   "theorems": [
    "GroCo.C65_acting_partial",
    "GroCo.C65_violation",
    "GroCo.C65_check"
   ],
   "note": "Fails on grids that the subgroup keeps and the group does not (C65_violation, C65_check); exactly the other grids work."
  },
  {
   "property": "C66",
   "status": "partial",
   "theorems": [
    "GroCo.C66_transposed_is_adjoint",
    "GroCo.C66_convolution_is_adjoint_partial",
    "GroCo.C66_violation",
    "GroCo.C66_channels_first",
    "GroCo.C66_channels_first_convolution_partial"
   ],
   "note": "Every transposed layer is the transpose of a convolution; the other way round this holds for the whole group and fails for proper subgroups (C66_violation). The _channels_first theorems say the same for channels_first layers that pad nothing themselves."
  },
  {
   "property": "C67",
   "status": "proved",
   "theorems": [
    "GroCo.C67_every_equivariant_convolution",
    "GroCo.C67_layers_are_equivariant_convolutions",
    "GroCo.C67_weights_determined",
    "GroCo.C67_channels_first",
    "GroCo.C67_channels_first_converse",
    "GroCo.C67_channels_first_determined",
    "GroCo.C67_parameters_determined",
    "GroCo.C67_channels_first_parameters",
    "GroCo.C67_transposed_parameters",
    "GroCo.C67_channels_first_transposed_parameters"
   ],
   "note": "Existence, converse and uniqueness of the weights. The _channels_first theorems say the same for channels_first layers that pad nothing themselves. C67_parameters_determined: uniqueness of weights and bias for channels_last layers with any padding, a bias and an injective activation. C67_transposed_parameters: the same for transposed layers."
  },
  {
   "property": "C68",
   "status": "partial",
   "theorems": [
    "GroCo.C68_windows",
    "GroCo.C68_refused_iff_broken_partial",
    "GroCo.C68_reversing",
    "GroCo.C68_violation_subgroup",
    "GroCo.C68_violation_dilation"
   ],
   "note": "Equivariance for all weights is characterised by the windows, for every configuration. Refusal is exact for subgroups that reverse every axis and without dilation; otherwise sound layers are refused (two violations)."
  },
  {
   "property": "C69",
   "status": "proved",
   "theorems": [
    "GroCo.C69_contributions",
    "GroCo.C69_exact",
    "GroCo.C69_accepted",
    "GroCo.C69_kernel_three",
    "GroCo.C69_stride_five",
    "GroCo.C69_channels_first",
    "GroCo.C69_dilated",
    "GroCo.C69_small_image",
    "GroCo.C69_dilated_channels_first"
   ],
   "note": "The exact criterion for all weights (C69_contributions), its arithmetic form without dilation for any allow_non_equivariance (C69_exact) and for accepted layers (C69_accepted, the condition of C31), and the strides of the tests (C69_kernel_three, C69_stride_five). C69_dilated: the arithmetic form with dilation, on images no smaller than the dilation rate, a condition that is needed (C69_small_image). C69_channels_first, C69_dilated_channels_first: the criteria for channels_first layers that pad nothing themselves."
  },
  {
   "property": "C70",
   "status": "proved",
   "theorems": [
    "GroCo.C70_windows",
    "GroCo.C70_no_zeros",
    "GroCo.C70_default_strides",
    "GroCo.C70_channels_first"
   ],
   "note": "The exact criterion in terms of windows for every configuration (C70_windows), its arithmetic form for layers that add no zeros (C70_no_zeros) and for default strides (C70_default_strides); channels_last. C70_channels_first: channels_first layers that pad nothing themselves."
  },
  {
   "property": "C71",
   "status": "partial",
   "theorems": [
    "GroCo.C71_refused_iff_broken_partial",
    "GroCo.C71_violation_default_strides",
    "GroCo.C71_violation_small"
   ],
   "note": "False as stated: layers without strides are accepted although broken, and layers whose windows cover the whole signal are refused although sound. Exact for given strides and larger signals."
  },
  {
   "property": "C72",
   "status": "proved",
   "theorems": [
    "GroCo.C72_network",
    "GroCo.C72_invariant",
    "GroCo.C72_batch_normalisation",
    "GroCo.C72_excitation",
    "GroCo.C72_last_axis_breaks"
   ],
   "note": "By induction over the arrangement of the layers. C72_last_axis_breaks shows that the channel axis has to be given with channels_first."
  },
  {
   "property": "C73",
   "status": "partial",
   "theorems": [
    "GroCo.C73_name_or_object",
    "GroCo.C73_object_partial",
    "GroCo.C73_violation_line"
   ],
   "note": "False as stated: objects that are not in the library are refused unless the subgroup has the name of a library group (C73_violation_line: the reflections of a line). C73_object_partial is the exact condition."
  },
  {
   "property": "C74",
   "status": "proved",
   "theorems": [
    "GroCo.C74_convolution",
    "GroCo.C74_pooling",
    "GroCo.C74_transposed",
    "GroCo.C74_usual_convolution",
    "GroCo.C74_usual_pooling",
    "GroCo.C74_usual_transposed",
    "GroCo.C74_test_model",
    "GroCo.C74_test_calls"
   ],
   "note": "Hypotheses on the arguments only: that the layers are accepted, that they return and the sizes of their results are conclusions."
  },
  {
   "property": "C75",
   "status": "proved",
   "theorems": [
    "GroCo.C75_constructor",
    "GroCo.C75_pool_constructor",
    "GroCo.C75_group_missing",
    "GroCo.C75_group_not_in_parent",
    "GroCo.C75_group_no_inverse",
    "GroCo.C75_group_no_action",
    "GroCo.C75_action_defaults",
    "GroCo.C75_action_defaults_group",
    "GroCo.C75_action_unknown_acting",
    "GroCo.C75_action_unknown_domain",
    "GroCo.C75_call_refused",
    "GroCo.C75_split",
    "GroCo.C75_merge",
    "GroCo.C75_check_empty",
    "GroCo.C75_check_sizes",
    "GroCo.C75_group_not_closed",
    "GroCo.C75_group_wrong_order",
    "GroCo.C75_build",
    "GroCo.C75_pool_build"
   ],
   "note": "Exact classification of the constructors; the other parts say which exception is raised under which condition. That a factor which does not divide the size is refused by split_axes is for tensors without empty axes. C75_build and C75_pool_build give the exception of building a layer, C43 the AssertionErrors and C44 when building succeeds."
  },
  {
   "property": "C76",
   "status": "partial",
   "theorems": [
    "GroCo.C76_exclusive_partial",
    "GroCo.C76_different_layers",
    "GroCo.C76_sequential",
    "GroCo.C76_finishes",
    "GroCo.C76_alone",
    "GroCo.C76_violation",
    "GroCo.C76_violation_lasting"
   ],
   "note": "Fails for calls of one layer that overlap: the second call may transform the kernel twice (C76_violation), or the layer keeps the transformed kernel (C76_violation_lasting). Proved for calls of different layers, for calls of one layer that do not overlap, and that every call finishes in any interleaving."
  },
  {
   "property": "C77",
   "status": "proved",
   "theorems": [
    "GroCo.C77_convolution",
    "GroCo.C77_pooling",
    "GroCo.C77_transposed",
    "GroCo.C77_entrywise",
    "GroCo.C77_stack",
    "GroCo.C77_size",
    "GroCo.C77_channels_first",
    "GroCo.C77_channels_first_pooling"
   ],
   "note": "channels_last layers; stacks of convolutions, pooling and layers that work entry by entry; transposed layers singly (their positions do not advance by whole strides). C77_channels_first and C77_channels_first_pooling: channels_first layers that pad nothing themselves."
  },
  {
   "property": "C78",
   "status": "proved",
   "theorems": [
    "GroCo.C78_network",
    "GroCo.C78_subgroups",
    "GroCo.C78_global_pooling"
   ],
   "note": "Sizes 2h+4 with h > 4, for which the pooling divides the grid (28 in the notebook)."
  },
  {
   "property": "C79",
   "status": "partial",
   "theorems": [
    "GroCo.C79_exact",
    "GroCo.C79_model_partial",
    "GroCo.C79_violation_subgroup",
    "GroCo.C79_violation_padding",
    "GroCo.C79_violation_equivariance",
    "GroCo.C79_notebook",
    "GroCo.C79_notebook_subgroups",
    "GroCo.C79_channels_first_exact",
    "GroCo.C79_channels_first_partial"
   ],
   "note": "The statement is false: layers announce wrong shapes (C28), so models of convolutions on proper subgroups cannot be built and models with padding layers are built on wrong sizes and need not be equivariant (C79_violation_*). C79_exact: in a model that is built and runs, all layers are built on the right sizes if and only if all convolutions are on their whole group (transposed ones may be on any subgroup) and pad nothing. Proved part: such models can be built and compute the same. C79_channels_first_exact and C79_channels_first_partial: the same for channels_first layers that pad nothing themselves."
  },
  {
   "property": "C80",
   "status": "proved",
   "theorems": [
    "GroCo.C80_per_image",
    "GroCo.C80_training",
    "GroCo.C80_training_subgroups"
   ],
   "note": "C80_per_image for all stacks of equivariant layers; C80_training for the notebook's network on any group in the plane, C80_training_subgroups for its variant that goes down to subgroups."
  },
  {
   "property": "C81",
   "status": "partial",
   "theorems": [
    "GroCo.C81_contributions",
    "GroCo.C81_exact",
    "GroCo.C81_default",
    "GroCo.C81_violation",
    "GroCo.C81_stride_five",
    "GroCo.C81_channels_first"
   ],
   "note": "The exact criteria and the meaning of leaving output_padding out are proved; the full statement is false (C81_violation). C81_channels_first: the criterion for channels_first layers that pad nothing themselves."
  },
  {
   "property": "C82",
   "status": "partial",
   "theorems": [
    "GroCo.C82_accepted",
    "GroCo.C82_received",
    "GroCo.C82_internal",
    "GroCo.C82_internal_pooling",
    "GroCo.C82_order",
    "GroCo.C82_positional",
    "GroCo.C82_named",
    "GroCo.C82_pooling",
    "GroCo.C82_global",
    "GroCo.C82_layer_arguments_partial",
    "GroCo.C82_data_format",
    "GroCo.C82_defaults",
    "GroCo.C82_violation_positional",
    "GroCo.C82_violation_named",
    "GroCo.C82_violation_pooling"
   ],
   "note": "Exact conditions for calls by keywords and where every argument arrives; the full statement is false: positional arguments, the layer arguments of pooling layers, and the group of the named layers (C82_violation_*)."
  },
  {
   "property": "C83",
   "status": "proved",
   "theorems": [
    "GroCo.C83_transformed_weights",
    "GroCo.C83_transformable",
    "GroCo.C83_invariants",
    "GroCo.C83_channels_first"
   ],
   "note": "C83_transformed_weights for channels_last layers with any padding, C83_channels_first for channels_first layers that pad nothing themselves; C83_transformable: every kernel can be transformed; C83_invariants: nothing changes after global group pooling."
  },
  {
   "property": "C84",
   "status": "proved",
   "theorems": [
    "GroCo.C84_order",
    "GroCo.C84_global_order",
    "GroCo.C84_differences",
    "GroCo.C84_global_differences",
    "GroCo.C84_average_below_maximum",
    "GroCo.C84_global_average_below_maximum",
    "GroCo.C84_convolution",
    "GroCo.C84_kernel_needed"
   ],
   "note": "All layers, both data formats and all paddings. C84_kernel_needed: the condition on the kernel cannot be left out."
  }
 ]
}
