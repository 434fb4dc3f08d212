# Formal model of GroCo in Lean 4: design

## Shape of the model

The code is pure tensor re-indexing (keras.ops) on top of four small pieces of logic: group tables, axis
bookkeeping, padding arithmetic, and a little layer state. It is modelled as total, computable Lean functions with
exceptions as values (`Except Err`).

* `Verif/Tensor.lean` — tensors are `{shape : List Nat, get : List Nat → α}`; two tensors are *the same* when
  shapes agree and entries agree at every in-range index. The keras.ops functions the repo calls
  (`expand_dims flip transpose concatenate take reshape moveaxis swapaxes pad zeros max mean arange`) are modelled
  with their numpy semantics, negative axes and error cases included. Any rank, any shape, any element type.
* `Verif/Manips.lean` — groco/utils/tensor_manips.py, misc.py
* `Verif/Group.lean`, `Verif/Wallpaper.lean`, `Verif/Space*.lean` — groco/groups
* `Verif/Padding.lean`, `Verif/Transforms.lean`, `Verif/Keras.lean`, `Verif/Layers.lean`, `Verif/Pooling.lean`,
  `Verif/Equiv.lean`, `Verif/Config.lean` — groco/layers, groco/utils/equivariance.py. Keras's own convolutions and pooling are external: modelled as their
  mathematical definition (cross-correlation etc.) over any (semi)ring / ordered field, recorded in the trusted base.
* `Verif/Spec.lean`, `LayerSpec.lean`, `PoolSpec.lean`, `StackSpec.lean`, `MovedSpec.lean`, `PoolMovedSpec.lean`, `NetSpec.lean` — the independent specification (signed
  permutation matrices, textbook formulas, what "commutes with the group" means). Nothing in these files mentions how
  the code works, except `BuiltConv` and `BuiltPool`, which say that a layer was constructed and built without exception.
* `Verif/Props/*.lean` — the theorems about the properties, each with an example showing that its hypotheses can be met.
* all other files — helper lemmas.

## How each property will be modelled and proved

| id | modelled as | proof |
|----|-------------|-------|
| C01 | tables as literals, transcribed from the source | finite table via kernel `decide` against signed permutations; associativity from the faithful representation |
| C02–C04 | the seven 2D action functions and `Oh_action` op by op, any rank/axes | compositional "stack of re-indexings" invariant, then signed permutation algebra |
| C05–C08 | `_action_on_group`, `upsample`, `_composition_flat_indices` op by op | pointwise formula, then group algebra |
| C09–C10 | `Group.__init__` with `parent` | general proof from group laws |
| C11–C15 | tensor_manips functions with integer (negative too) axes | ravel/unravel arithmetic |
| C16–C21 | `EquivariantPadding` with Keras's built-in padding | integer arithmetic |
| C22–C27 | `GroupTransforms` + `GroupConv*.call` + Keras conv | pointwise formula, sum re-indexing |
| C28 | `compute_output_shape` | shape of C22 compared; counterexample where false |
| C29 | layer as state machine with exceptions at any point | induction over call sequences; counterexample where false |
| C30 | data_format parameter of all layers | pointwise formulas compared; equivariance carried over |
| C31–C32 | transposed layers | same technique as C22–C24 |
| C33–C35 | pooling layers over a linear order / field | window re-indexing |
| C36 | `check_equivariance` over an ordered field | pointwise |
| C37 | lists of layers | induction |
| C38–C39 | config code, strings | case analysis, counterexamples |
| C40–C42 | negative group axes, transposed formula, inputs without group axis | as above |
| C43–C44 | `build` and constructors with every error branch | exact conditions, both directions |
| C45–C46 | two layers or two inputs | formulas of C22 compared |
| C47 | arguments as written, arrays in the padding layer (Raw.lean) | the two interpretations compared |
| C48–C49 | `groups`, calls with other numbers of group elements | pointwise formula of the grouped convolution |
| C50 | calls in traced graphs with unknown sizes | the reshaped shapes coincide; counting unknown sizes |
| C51 | `group_dict` | entries against the list of names |
| C52 | negative `group_axis` | sizes of the axes through the five steps of the action |
| C53 | layers in training | `build` depends on the shapes of the weights only; induction over the history |
| C54, C55 | linear layers, ranges of pooling layers | Relational.lean: every operation of the model preserves relations between the entries of three inputs |
| C46 (transposed), C56 | translations of transposed and pooling layers | TranslateLemmas.lean: the entry of the spread-out input that a window position reads |
| C57 | lifting layers of subgroups | formulas of C22 compared through the embedding of C06 |
| C58 | chains of subgroups | ChainLemmas.lean: layers with windows of one position; table of all chains |
| C59 | which subgroups are listed | tables of all pairs and chains of groups; symmetries as matrices |
| C60 | which axes are acted on | C03 and C04 for the admissible axes; in three dimensions the function of the axes is computed |
| C61 | negative spatial axes | SpatialLemmas.lean: the actions axis by axis |
| C62 | dimension of layer and group | inversion of `build`, errors of the actions |
| C63 | documentation | C22, C41, C43 for the shapes; tables; the definitions for the defaults |
| C64 | images that are not squares | the proofs of C23 to C35 for one element `h`: sizes only have to agree on axes exchanged by `h` (`Kept`) |
| C65 | acting on such images | error branch of the whole group's action (C04) |
| C66 | transposed layers are adjoints | exchange of the two sums over offsets and positions (`sum_transpose`), sizes by `round_trip`; the weights of one layer are those of the other read through the inverse element |
| C67 | exactly the equivariant convolutions | weights are read off the values on signals with one non-zero entry (`sum_single`); commuting with `h` makes them unchanged by `h` (`plain_covariant`), hence determined by those of the identity; with padding, a position whose window lies wholly inside the image does (`C67_parameters_determined`) |
| C68 | refused exactly where broken | necessity by a layer with one weight and a signal with one non-zero entry (`conv_exact`); sufficiency by reindexing (`formula_of_reads`); first and last window being mirror images gives symmetric padding (`symmetric_of_mirror`) |
| C69 | which transposed layers are equivariant | as C68, with `Hits` in place of `Reads` (`convT_exact`); an offset contributing from the first position and its mirror image give the condition on sizes (`mirrorT_iff`) |
| C70 | which pooling layers are equivariant | necessity by signals that depend on the position only: one at a single position, and -1 everywhere (`moved_of_reduce`); sufficiency by comparing the sets of pooled values, or the sums and numbers of positions (`reduce_moved`); arithmetic form by the first and the last window (`covers_mirror`) |
| C71 | pooling refused exactly where broken | C70 with the build conditions of C44 |
| C72 | networks with branches and normalisation | induction over `Network` (NetSpec.lean); each step by writing the moved signal as one tensor (`moved_asm`) whose values per channel are a permutation of the original ones (`valuesOf_moved`); `C72_last_axis_breaks` is a caution for users, not a fault of the library |
| C73 | groups given as objects | case analysis of the two lookups of UserGroup.lean, through C51; witness of the violation: the reflections of a line |
| C74 | layers in the usual configurations always work | C44 (accepted), C22/C33/C41 (returns, sizes) and C37 (equivariant) combined, with hypotheses on the arguments only; tests/test_model.py for all sizes and weights through C36 |
| C75 | misuse is refused with a definite kind of exception | case distinction along the code; C39 for the strings, C51 for the names, C03/C05 for the defaults of `action`, C36's lemmas for check_equivariance |
| C76 | calls that overlap in time | small-step semantics of `call` with interleaving threads, reduced to C29 by an invariant; the full statement is false |
| C77 | outputs depend on their receptive field only | the formulas of C22, C33 and C41 for two inputs that agree there; composition of fields by induction over the stack |
| C78 | the networks of the example notebook | C74 for each layer, C37 for the stack, the global pooling and dense layer as functions of the stack's output |
| C79 | models built by `keras.Sequential` before there are data | induction over the layers, one step from C28's exact condition and C36 (batch size plays no role); the full statement is false |
| C80 | augmenting data with transformed images, each by its own element | C37 with independence of the images in a batch; training as iteration of an arbitrary update that sees outputs only |
| C81 | the Keras argument `output_padding` of transposed layers | as C69, through the general form `transposed_exact` of its proof; `mirrorW_iff` is the condition on sizes; the full statement is false |
| C82 | binding of arguments along the constructors (Binding.lean) | exact conditions for each step (BindingLemmas.lean), composed; the full statement is false |
| C83 | what a transformed kernel does to a layer | the kernel used for element `h e` is that used for `h` after transforming with `e` (`weight_covariant`), compared term by term |
| C84 | order and differences of signals | pairs of runs with related entries, as for C54 and C55 (Relational.lean, PoolRelational.lean) |

Properties the code violates are kept in their full form in properties.jsonl; a theorem with a concrete witness proves
the violation and a `_partial` theorem proves the largest fragment that holds. No property is dropped as inexpressible.
Floating point rounding, dtypes, int32 overflow and autodiff/training are outside the model.

## Trusted base

1. **The Lean kernel** (Lean 4.33.0), and Mathlib as installed. Every theorem depends on at most the three standard axioms
   `propext`, `Classical.choice`, `Quot.sound`. No axioms are added; no `sorry`, no compiled evaluation.
   Finite tables are checked by `decide +kernel`, i.e. by the kernel itself.
2. **The transcription.** The model is written by hand from the source; each definition cites the lines it models. The
   tables (composition, inverses, subgroups, cosets) are literal copies. The tables of the derived groups O, D4h and D4
   are not trusted: `Oh_init`, `O_init`, … prove that they are what `Group.__init__` computes.
3. **The semantics of Keras**, listed below.
4. **The reading of the properties**: the specification files and the statements in `Verif/Props`.

### What is modelled

| source | model |
|--------|-------|
| groco/groups/group.py, all methods | Group.lean |
| groco/groups/wallpaper_groups.py | Wallpaper.lean |
| groco/groups/space_groups.py | Space.lean |
| groco/utils/tensor_manips.py, all functions | Manips.lean |
| groco/utils/misc.py `backup_and_restore` | Layers.lean |
| groco/utils/equivariance.py | Equiv.lean |
| groco/layers/padding.py, all methods | Padding.lean, Config.lean (`get_config`) |
| groco/layers/group_transforms.py, all methods | Transforms.lean, Config.lean |
| groco/layers/conv2d.py, conv3d.py, conv2d_transpose.py, conv3d_transpose.py | Layers.lean, one model with the dimension and the transposition as parameters |
| groco/layers/pooling.py | Pooling.lean |
| constructors with arguments as written | Raw.lean |
| how arguments are bound to the parameters of the constructors; the named layers | Binding.lean |
| the Keras argument `groups` | Grouped.lean |
| the Keras argument `output_padding` | OutputPadding.lean |
| notebooks/example_MNIST.ipynb: `GlobalMaxPooling3D` after group layers, the dense head (any function of each row) | Notebook.lean |
| calls of layers from several threads | Concurrent.lean |
| layers as parts of a `keras.Sequential` model | Sequential.lean |
| (use of the layers, not code of the repository) augmentation and training | AugmentSpec.lean |

### What is assumed about Keras

* `keras.ops` functions act as in numpy, with axes normalised in the same way; each is one definition in Tensor.lean.
* `ops.take` with an index out of range is an error (some backends clip). No theorem relies on this except those that
  say that something is refused.
* `Conv2D/3D`: cross-correlation with strides and dilation; 'same' adds ⌈n/s⌉-window padding with the odd zero at the end
  (TensorFlow convention, also the one of Keras with JAX). Bias along the channel axis, then the activation.
  `ops.conv` has no argument for the number of groups: with `q` times as many input channels as the kernel has, where `q`
  divides the number of filters, the backends compute a convolution in `q` groups without complaint.
* `Conv2DTranspose/3DTranspose` without `output_padding`: each input entry times the kernel added to the output
  positions `p * stride + k * dilation`; output size `n * s + max(k - s, 0)` for 'valid', `n * s` for 'same' with
  `(k - s) / 2` positions cropped at the start. With `output_padding` `o` (C81 only) the output size is `(n - 1) * s + k + o` for
  'valid' and `(n - 1) * s + k % 2 + o` for 'same' with `(k - k % 2 - o) / 2` positions cropped at the start; values of `o` not
  below the stride, and with some versions of Keras `o = 0`, are refused by the constructor.
* The names of the arguments of the Keras constructors are those listed in Binding.lean; other names are refused. The legacy arguments
  `input_dim`, `batch_shape`, … are left out. Python binds arguments as the language reference says.
* Pooling layers: windows as for convolutions, but the maximum or mean is taken over positions inside the input only.
* Constructors lower-case the padding and accept 'same' and 'valid'; they check that there is one positive kernel
  size, stride and dilation rate per dimension, at least one filter, and not strides above 1 together with dilation above 1.
* `BaseConv.build` calls the overridden `compute_output_shape`, creates the weights and sets `input_spec`; calls check
  `input_spec` and the number of axes before `call`.
* The maximum of an empty tensor is an error.
* Threads (C76 only): reading or assigning one attribute is a single step, and all threads see the steps in one order. Inside
  `super().call` kernel, filters and bias are read in this order; everything else there uses local variables. Layers are built.
* Models (C79 only): a layer applied to a symbolic tensor is built on its shape; the shape of the result is what an overridden
  `compute_output_shape` returns (the convolutions) or that of `call` traced on a tensor of this shape (pooling and other layers).
  Only the batch size is unknown. Layers that are built are not built again when the model is called.
* `Activation`, `BatchNormalization`, `Add`, `Concatenate` and the like (C72 only) are modelled by what they compute:
  entry by entry from the entry, its channel and the values of the channels; entry by entry from two branches; or by
  `ops.concatenate` along the channel axis.
* `Layer` has no attributes `kernel_size`, `strides` or `padding` of its own.
* `str.upper` and `str.lower` are modelled exactly as far as the comparisons in the code are concerned.

### What is not modelled

* floating point rounding, dtypes, int32 overflow of index tensors: entries are elements of an arbitrary semiring
  (convolutions), or of a field with a linear order (pooling, `check_equivariance`); index tensors are naturals
* gradients, training, regularizers, initializers (weights are arbitrary)
* symbolic tensors outside C15 and C50: layers are modelled in eager mode; Verif/Traced.lean models calls while some sizes
  of the input are unknown; `build` is modelled with unknown sizes in shapes
* outside C47, sizes given as an integer are taken as already broadcast to one per dimension; `data_format=None` is not
  modelled (leaving it out is, in C47)
* what layers compute for groups other than the eleven in `group_dict`; `Group` objects made by the user are modelled
  (C09, C10), and which of them a layer accepts (C73): only those whose subgroup has the name of a library group
* the unused argument `separable`; `partial` objects such as `P4Conv2D`, which only fix the argument `group`
* exception messages

## Where the code does not have the property

Each line names the theorem with a concrete witness. The full statement stays in properties.jsonl; the theorem with suffix
`_partial` proves the largest part found to hold.

* C04: `D4h` and `D4` cannot act on cuboids with depth different from height and width, because all 48 elements of `Oh` are
  computed first (`C04_violation_cuboid`).
* C11, C13: `move_axis_to_left_of`, hence `merge_axes`, compares a negative with a non-negative axis as numbers
  (`C11_violation`, `C13_violation`). `C11_exact` and `C13_exact` say for which pairs of axes the functions are right for all tensors.
* C19: for 'same_equiv' the exception is an AttributeError, since the message calls a method that does not exist
  (`C19_violation`).
* C21, C25, C30: the data format is not passed on to the padding layer, which with channels_first pads the channel
  axis (`C21_violation`, `C25_violation_channels_first`, `C30_violation`). It also checks the sizes of the wrong axes, so that
  layers that pad nothing can be accepted and broken (`C25_violation_last_axis`); `C25_channels_first` says which these are.
  Every channels_first layer that pads nothing computes what the channels_last layer with Keras's own padding computes
  (`C30_plain`, `C30_plain_transposed`, `C30_plain_pooling`, Props/FormatTwin.lean); from this the formulas, criteria and
  receptive fields of C22, C26, C33, C36, C37, C41, C45, C46, C56, C57, C66, C67, C69, C70, C77, C79 and C81 carry over
  (Props/FirstFormat.lean, Props/FirstLocal.lean, Props/FirstStack.lean, Props/FirstSlice.lean, Props/FirstAdjoint.lean,
  Props/FirstComplete.lean, Props/FirstDetermined.lean, Props/FirstDeterminedTransposed.lean, Props/FirstOutputPadding.lean,
  Props/FirstShape.lean, Props/FirstSequential.lean).
* C25: strides that differ along exchanged axes, and dilation rates (not seen by the padding layer), break equivariance
  silently (`C25_violation_strides`, `C25_violation_dilation`). On images larger than the windows these are the only accepted
  channels_last configurations that are broken (`C25_exact`).
* C28: `compute_output_shape` announces the order of the group instead of the subgroup, ignores the padding layer and
  its argument (`C28_violation_subgroup`, `C28_violation_padding`, `C28_violation_argument`).
  `C28_exact`: a channels_last layer is right about its own sizes exactly if it is on the whole group and pads nothing;
  a transposed one exactly if it pads nothing (`C28_transposed_exact`).
* C29: when Keras raises inside the call, the transformed kernel is not replaced by the stored one
  (`C29_violation`; the next call may silently return something else, `C29_violation_silent`).
  `C29_exact` says for every layer that acts with more than one element when a call leaves a trace (exactly when it raises after
  the kernel is transformed) and which trace.
* C31: stride 1 with 'same_equiv' and an even kernel (`C31_violation`).
* C32: the transposed kernel is read with filters and channels confused, and weight number 0 is used where the signal
  should be zero (`C32_violation_identity`, `C32_violation_order`, `C32_violation_zero`). `C32_exact` says which layers are not
  affected.
* C34: default strides, 'same_equiv' with an odd total, oblong pool sizes (`C34_violation_default_strides`,
  `C34_violation_same_equiv`, `C34_violation_oblong`).
* C36: with the default `group_axis` the function raises TypeError for every signal on a group
  (`C36_default_group_axis`).
* C38: `get_config` of every convolution and pooling layer raises AttributeError; building twice raises IndexError
  (`C38_violation_get_config`, `C38_violation_rebuild_pooling`, `C38_violation_rebuild_convolution`). With the missing attributes
  repaired, the configuration would still contain `dimensions`, which every constructor refuses (`C38_violation_dimensions`).
* C39: 'SAME_EQUIV' is refused; the documented `subgroup=None` is refused; transposed layers on inputs without a group
  axis accept any group as subgroup (`C39_violation_upper_case`, `C39_violation_none`, `C39_violation_transposed`).
  The padding layer alone also accepts 'valıd' with a dotless i, whose upper case is VALID (`C39_violation_dotless`).
* C40: negative `new_group_axis` for signals on the grid, when the new axis is behind a spatial axis (`C40_violation`;
  `C40_negative_axis_partial` covers all other cases).
* C42: pooling layers accept signals without group axis and pool their channels (`C42_violation`).
* C47: sizes written as a list, which Keras accepts, make a matrix in the padding layer, so that `build` (or, depending
  on the backend, the first call) raises wherever padding is needed; if `data_format` is left out GroCo assumes channels_last while Keras uses its configuration, and the
  output is silently wrong; `strides=None` raises in pooling layers (`C47_violation_list`, `C47_violation_data_format`,
  `C47_violation_none_strides`).
* C48: with the Keras argument `groups` the part of the channels seen depends on the group element instead of on the
  filter, and mixes channels of different group elements, so that the layer silently is not equivariant
  (`C48_violation`; `C48_grouped_partial` says what is computed). `C48_exact`: with two or more groups and a
  nontrivial subgroup no configuration is equivariant for all weights, with or without group axis on the input.
* C49: convolution layers accept multiples of the number of group elements they were built for and compute a convolution in
  groups; pooling layers ignore surplus elements (`C49_violation_convolution`, `C49_violation_pooling`).
* C50: while tracing only one size may be unknown. `format_batch_dim` writes every unknown size as -1, which the reshape
  accepts once, so that layers cannot be traced on images of unknown height and width (`C50_violation`,
  `C50_two_unknown`), though Keras's own layers can.
* C52: `action` with a negative `group_axis` mixes up the axes: it is refused as soon as two elements act
  (`C52_refused_partial`), and with the trivial acting group silently moves the group axis instead of the new axis
  (`C52_violation`).
* C55: with the equivariant paddings the zeros around the signal take part in the maximum and the mean: the maximum of a
  negative signal is zero near the border (`C55_violation`). Without padding, or if zero lies in the range, it holds
  (`C55_range_partial`, `C55_maximum_partial`, `C55_activation_partial`); a channels_last layer keeps every range exactly if it
  adds no zeros (`C55_exact`).
* C56: with padding 'same' the mean is over the positions inside the signal only, so it changes when the window is moved to the
  border (`C56_violation`). With 'valid' and 'valid_equiv' it holds (`C56_translation_partial`);
  with any padding it holds where the two windows have the same offsets inside (`C56_windows`), and for the maximum of signals
  without negative entries, e.g. after a ReLU (`C56_maximum_partial`, `C56_channels_first_maximum_partial`).
* C58: the representatives of the cosets do not match for three chains of subgroups, P4M - P2MM - PMw, P4M - P2MM - PMh and
  Oh - D4h - D4: pooling in two steps gives another (also equivariant) result than pooling at once (`C58_violation_PMw`,
  `C58_violation_PMh`, `C58_violation_D4`). For the other 59 chains it holds (`C58_stages_partial`).
* C59: P2 is missing from the subgroups of P2MM (`C59_violation`), although it is listed for P4M and P4; all other inclusions are
  listed (`C59_complete_partial`), and nothing is listed that is not an inclusion (`C59_sound`).
* C60: the three-dimensional groups look at the first spatial axis only and act on it and the two axes that follow
  (`C60_following`): with other axes, in another order or number, the result is silently wrong (`C60_violation`). In two
  dimensions any two axes work (`C60_axes_partial`).
* C61: negative spatial axes are shifted wrongly when the transformed copies are put together at an axis behind them: the
  group then acts on other axes, silently (`C61_violation_grid`, `C61_violation_group`; the latter in the default layout of
  group-valued signals). In three dimensions they are refused (`C61_refused`).
* C62: `GroupConv2D` accepts a three-dimensional group if the kernel sizes equal the number of channels, e.g. a 3x3 kernel on RGB
  images (`C62_violation_convolution`), and pooling layers accept groups of any dimension (`C62_violation_pooling`).
* C63: the documented input and output shapes of transposed layers are exchanged: with a proper subgroup every input of the
  documented shape is refused (`C63_violation_transposed`); the group 'PMv' of the README does not exist
  (`C63_violation_name`); the composition table holds `r` composed with `c`, not the inverse of `r` with `c` as the docstring
  says (`C63_composition`: the docstring is right exactly for five groups); `Group.action` called on a grid signal with the
  defaults of its arguments is a TypeError (`C63_violation_defaults`), and `acting_group=None` an error
  (`C63_violation_acting`).
* C65: a subgroup acts only on grids on which the whole group acts, because the whole group acts first: P4M with
  `acting_group="P2MM"` raises ValueError on every rectangle (`C65_violation`), and check_equivariance raises on every
  such image (`C65_check`), although layers are equivariant there (C64).
* C66: with a proper subgroup a convolution need not be the transpose of any transposed layer (`C66_violation`): outside
  the subgroup the transposed layer uses its first stored weight for all filters (C32).
* C68: with plain padding layers are refused that would be equivariant: for subgroups that do not reverse an axis
  (`C68_violation_subgroup`: 'P1') and, since the dilation rate is ignored, for dilated kernels
  (`C68_violation_dilation`). For all other subgroups, without dilation, the refusal is exact
  (`C68_refused_iff_broken_partial`).
* C69 adds to C31 that its condition is also necessary: every other transposed layer without dilation that is accepted is not
  equivariant for some weights, e.g. stride 5 with kernels of size 3 and 'same_equiv' (`C69_stride_five`). With dilation
  (`C69_dilated`) the extent of the dilated kernel takes the place of its size, unless the image is smaller than the dilation rate
  (`C69_small_image`).
* C81: kernels of size 3, strides 2, 'valid_equiv' and `output_padding=1`: the layer without `output_padding` is equivariant, with it
  it is not, and nothing is refused (`C81_violation`). The padding layer computes its zeros without looking at `output_padding`.
  Conversely `output_padding=2` repairs the layer of `C69_stride_five` (`C81_stride_five`).
* C82: the pooling layers accept `name`, `dtype` and `trainable` but hand them to the Keras layer inside, the group layer itself gets
  none of them (`C82_violation_pooling`). Positional arguments are not those of Keras: `GroupConv2D(8, 3, group="P4")` is a
  TypeError (`C82_violation_positional`), and the named layers and the pooling layers take no positional arguments at all.
  `P4Conv2D(group=P2, ...)` is a layer on P2 (`C82_violation_named`). `C82_data_format` is the cause of the violations with
  channels_first: `GroupTransforms` has a parameter `data_format`, so that it is no longer in the `**kwargs` given to the padding.
* C71: with plain padding, pooling layers whose strides are not given are accepted although they are broken
  (`C71_violation_default_strides`), and layers all of whose windows cover the whole signal are refused although they are
  equivariant (`C71_violation_small`). For given strides and larger signals the refusal is exact (`C71_refused_iff_broken_partial`).
* C73: a `Group` object that is not in the library is refused with KeyError unless a subgroup with the name of a library group is
  given, because the subgroup is looked up in `group_dict` (`C73_violation_line`: the reflections of a line; there is no
  one-dimensional group in the library, so none for the one-dimensional pooling layers).
* C76: `call` stores the transformed kernel in the layer while it runs, so calls of one layer from several threads disturb each
  other without any exception. A call that begins in the meantime transforms the kernel twice (`C76_violation`), or both results
  are right but the layer keeps the transformed kernel for good (`C76_violation_lasting`). Calls of different layers, and calls
  of the same layer that do not overlap, are safe (`C76_different_layers`, `C76_exclusive_partial`, `C76_sequential`).
* C79: models are built from the shapes that the layers announce, so wherever these are wrong (C28) the next layer is built on
  sizes it will not get. A convolution on a proper subgroup followed by a layer for the subgroup is refused with AssertionError
  (`C79_violation_subgroup`), though the same layers work one after the other. After a convolution that pads, the next layer
  pads as is right for the announced size, and the model is not equivariant though each layer has passed its own check
  (`C79_violation_padding`, `C79_violation_equivariance`). `C79_exact`: this happens exactly if a convolution is not on its whole
  group or pads. The models of the notebook are not affected (`C79_notebook`, `C79_notebook_subgroups`).

## Where each property is proved

Files in `lean/Verif/Props` with theorems named after the property.

| property | files |
|---|---|
| C01 | Groups |
| C02 | Groups |
| C03 | Groups |
| C04 | Groups |
| C05 | Actions |
| C06 | Actions |
| C07 | Actions |
| C08 | Actions |
| C09 | Derived |
| C10 | Derived |
| C11 | Manips, ManipsExact |
| C12 | Manips |
| C13 | Manips, ManipsExact |
| C14 | Manips |
| C15 | Manips |
| C16 | Padding |
| C17 | Padding |
| C18 | Padding |
| C19 | Padding |
| C20 | Padding |
| C21 | Format, Padding |
| C22 | Conv, FirstFormat |
| C23 | Equivariance |
| C24 | Equivariance |
| C25 | Equivariance, ExactConfig, FormatMoved |
| C26 | Conv, FirstSlice |
| C27 | Conv |
| C28 | FirstShape, Shape, ShapeExact |
| C29 | State |
| C30 | FirstOutputPadding, Format, FormatLayers, FormatMoved, FormatTwin |
| C31 | Transpose |
| C32 | Transpose, TransposeKernel |
| C33 | FirstFormat, Pooling |
| C34 | Pooling |
| C35 | Pooling |
| C36 | Check, FirstStack |
| C37 | FirstStack, Stack |
| C38 | CallArguments, Config |
| C39 | Options |
| C40 | NegativeAxis |
| C41 | FirstStack, Transpose |
| C42 | Pooling |
| C43 | Build |
| C44 | Build |
| C45 | FirstFormat, Slices |
| C46 | FirstFormat, FirstStack, Slices, Translate |
| C47 | Arguments |
| C48 | Grouped, GroupedExact |
| C49 | Calls |
| C50 | Traced |
| C51 | Dictionary |
| C52 | GroupAxis |
| C53 | Training |
| C54 | Linear |
| C55 | Range, RangeExact |
| C56 | FirstLocal, FirstMaximum, Translate, TranslateMaximum, TranslateWindows |
| C57 | FirstStack, SubgroupLayer |
| C58 | Chain |
| C59 | Subgroups |
| C60 | Axes |
| C61 | SpatialAxes |
| C62 | Dimension, DimensionGroup |
| C63 | Documentation |
| C64 | Rectangles |
| C65 | Rectangles |
| C66 | Adjoint, FirstAdjoint |
| C67 | Complete, Determined, DeterminedTransposed, FirstComplete, FirstDetermined, FirstDeterminedTransposed |
| C68 | Exact |
| C69 | DilatedTranspose, ExactTranspose, FirstFormat |
| C70 | ExactPool, FirstFormat |
| C71 | ExactPool |
| C72 | Network |
| C73 | UserGroup |
| C74 | Usual |
| C75 | BuildErrors, Errors |
| C76 | Concurrent |
| C77 | FirstLocal, Local |
| C78 | Notebook |
| C79 | FirstSequential, Sequential |
| C80 | Augment |
| C81 | FirstOutputPadding, OutputPadding |
| C82 | CallArguments |
| C83 | Transformed |
| C84 | Stable |

## Testing the theorems against wrong programs

`seeded/LOG.jsonl` records edits to a scratch copy of the model. After an edit every proof that no longer compiles is left
out automatically until the rest builds; the theorems that then depend on a proof left out are the ones listed as failed.
