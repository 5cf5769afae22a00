# Formal model of bfichera/shgpy — design

`/repo` is modelled in Lean 4 (`/verif/lean/Verif`). The model is written by
reading the Python source as text; nothing of `/repo` is executed.

## Layout

* `Verif/Py/*`      – the bits of Python/numpy/sympy used everywhere: ordered dictionaries, exceptions as
                      values, list indexing with negative wrap-around, float `%`, n-dimensional arrays, sympy trees.
* `Verif/Model/*`   – one file per Python module/class; every definition cites file and lines.
* `Verif/Spec/*`    – small specifications, independent of the model's helpers.
* `Verif/Proofs/*`  – helper lemmas.
* `Verif/Props/*`   – the property theorems (named `Cnn_...`), each with an `example` that instantiates
                      its hypotheses on a concrete, non-trivial case.
* `properties.jsonl`, `MANIFEST.json`, `seeded/LOG.jsonl` – property list, status, wrong programs tried.

Naming: a theorem `Cnn_..._partial` proves part of property Cnn; `Cnn_..._broken` (and a few names such as
`C03_duplicates_can_survive`, `C07_offset_not_rescaled`, `C15_live_arrays`, `C22_directions_disagree`) proves that the
code violates the property, with a concrete witness or for a whole class of inputs.

## Trusted base

* Lean's kernel. No own axioms, no `sorry`, no `native_decide`/`bv_decide`. The axioms of each theorem are listed at the
  end of this file; they are among `propext`, `Classical.choice`, `Quot.sound`.
* The transcription of the Python source into the model (comments cite lines). The three tables (`_lookup_table.py`,
  `tensor_definitions.py`, the symbols of `shg_symbols.py`) were transcribed by a script, entry by entry.
* The semantics of Python, numpy, scipy, sympy and matplotlib that the model's comments state.
* The assumptions packed into the parameters below.

### Idealizations that hold throughout

* Floating-point numbers are exact: elements of any ordered field with floor function and a constant `pi > 0`
  (`DataContainer`; both `ℝ` with the true pi and `ℚ` with the float64 value of `np.pi` are instances), or `ℝ`/`ℂ`.
  Rounding, overflow, `nan`, `inf` are not modelled, except where a definition says so (`Err.nonFinite`; `Model/NonFinite.lean`; `-inf` as the
  maximum of an empty container; the angles in C85, the numbers in C81, the Fourier components in C98, the values in C100, the sampled values in C120 and the compiled functions in C122 are rounded).
* sympy objects are trees (`Expr`): rational numbers, the imaginary unit, symbols with an assumption tag, sums, products,
  natural powers, `cos`, `sin`. Negative or fractional powers and other functions are outside the model.
* Python strings are lists of characters; dictionaries are association lists in insertion order.
* Deprecation warnings, logging and timing are not modelled.  A data frame (`as_pandas`) is the list of its rows.

### Parameters and what is assumed of them

| parameter | stands for | assumption |
|-----------|------------|------------|
| `Sympy` (`norm`, `setOrder`) | automatic evaluation of sympy; iteration order of sets | the value under every valuation is preserved, no symbol is invented; the order is some arrangement of the distinct elements |
| `Rewriting` | `expand`, `expand_trig`, `simplify` | value preserved, no symbol invented |
| `Repr` | `srepr` and `sympify` of a string | reading back gives an expression of the same value and symbols |
| `Files`, `NpFiles`, `Disk` | files | reading returns what was written last; `pickle`, `np.save` keep their content; opening for writing succeeds |
| csv reader, `float` of a string | text files | a file is a list of rows of strings; `float` is any partial function |
| `interp` | `scipy.interpolate.interp1d` | reproduces its nodes, or is a weighted sum of the values (C97); stated as hypotheses where used; for the kinds 'linear', 'cubic' (the default), 'nearest', 'previous' and 'next' theorems about models (C135, C137, C142) |
| `solve` (C42) | `sp.solve` | its first solution solves the equations (hypothesis); for C42_keeps and C55_particularized also: it does not exclude any solution of linear equations (hypothesis); where tensors made by `particularize` are used further (C82, C84, C99, C104, C105) also: it expresses some symbols of the equations by the others (`GoodSolver`) |
| `round` (C39) | `np.round` of the unit vectors | stated in the theorem |
| `Compiler` | C code generation, compilation, loading | the function computes the (real part of the) value of the expression when its arguments are those it expects.  C112 derives this from the text of the C files for expressions with powers, cosines and sines of real quantities only, and shows that it is false for others |
| `Printer` | how sympy writes an expression in C | the text is an expression of C with the value of the expression, where `pow`, `cos` and `sin` see real parts (C112) |
| `Listing` | order of a directory listing | a permutation of the files |
| `Optimizer` | `scipy.optimize` routines | none: any function from calls to results |
| `FloatArith p` (C85) | floating point addition with `p` digits | the result is a nearest float; ties are free; the exponent is unlimited |
| `FloatFourier p q` (C98) | the arithmetic of `dat_to_fdat`: `float64`, `complex64`, `np.linspace`, `np.exp` | rounding as in `FloatArith`; the accuracy of the functions is a hypothesis (`Accurate`) |
| `FloatSynth p` (C120) | the arithmetic of `fdat_to_dat`: `float64`, `np.linspace`, `np.cos`, `np.sin`, complex products | rounding as in `FloatArith`; the accuracy of the functions is a hypothesis (`AccurateSynth`) |
| `Step` (C78, C79) | the order of operations on the disk | `shutil.copy` is two steps, create and fill; a file in between cannot be loaded; `rmtree` removes the files one by one, then the folder |
| `Bits` (C86) | the bits of an `int64` read as a `double` | integers from 0 to 2^52 give multiples of the smallest positive double |
| user functions (`filter`, `mapping`) | callbacks | total functions that do not write into their argument; for `filter` also with memory and writing (C87) |

The structures are inhabited (`Sympy.plain` and the instances in the examples), so no theorem holds for want of a model.

## What is modelled

| file | modelled | not modelled |
|------|----------|--------------|
| `core/data_handler.py` | `DataContainer` (whole class), `fDataContainer` (whole class), `fFormContainer`, `FormContainer`, `n2i`, `fform_to_fdat`, `fdat_to_dat`, `dat_to_fdat`, `form_to_fform`, `fform_to_form`, `form_to_dat`, `form_to_fdat`, `fform_to_dat`, `merge_containers`, `read_csv_file`, `load_data*`, `dat_subtract`, `dat_add`, `save_fform`, `load_fform`, `as_pandas` of the four classes | `__repr__` (formatting of a frame); `_fexpr_n`, `_I_component`, `_no_I_component` (called nowhere) |
| `core/_fourier_transform.py`, `core/_lookup_table.py` | everything; the table is complete | – |
| `core/utilities.py` | `_swap_last_two_indices`, `particularize`, `make_tensor_real/complex`, `map_to_real`, `rotation_matrix3`, `rotation_matrix_from_two_vectors`, `tensor_product`, `tensor_contract`, `transform`, `levi_civita`, `union`, `rotation_matrix3symb` (also with an integer array as axis) | – |
| `formgen.py` | `formgen`, `gen_S`, `formgen_just_dipole`, `formgen_dipole_quadrupole`, the field and moment generators, `make_form_from_P_and_Q` | deprecation warnings |
| `fformgen.py` | `generate_uncontracted_fourier_transforms`, symbolic variant, `generate_contracted_fourier_transforms`, `_save_fform_dict`, `_load_fform_dict` | negative `ndigits`, the binary representation of rounded numbers, logging, timing |
| `tensor_definitions.py`, `shg_symbols.py` | all dipole, surface and quadrupole tables and the symbols in them | symbols that no table uses |
| `fformfit.py` | cost, chunked cost, gradient, model functions, their files and loading, all seven fit routines, `multiprocessing=True` when loading | header files, the temporary directory, logging, timing, an argument array whose elements are not 64 bits wide |
| `plotter.py` | layout, curves, titles, legends, labels, radial tick, saving, showing | tick marks, colours, what matplotlib does with its parameters |

## Findings: where the code departs from the property

Each has a theorem (in brackets) unless marked "comment".

* `DataContainer(...)`: duplicates are recognized by comparing `x % 2pi` with the unreduced angle of the points kept, so
  duplicates outside [0, 2pi) survive [`C03_duplicates_can_survive`]; integer arrays in radians are truncated after
  the reduction modulo 2pi [`C02_int_radians_truncated`].
* In floating point arithmetic a tiny negative angle is reduced to `2*np.pi` itself, at construction and by `phase_shift_data`
  [`C85_turn_broken`, `C85_shift_broken`].
* `get_offset` is not rescaled by `scale_data` [`C07_offset_not_rescaled`].
* `get_items`/`get_values` in radians hand out the live arrays [`C15_live_arrays`, `C15_live_items`,
  `C15_fdata_live_arrays`, `C15_fform_live_arrays`].
* `normalize_data` multiplies by a rounded quotient, so the new maximum can miss the target by a rounding error: 49 normalized to 1
  gives `1 - 2^-53` [`C100_normalize_broken`].
* `DataContainer.copy` always raises `AttributeError` [`C16_data_copy_broken`]; the copy of an `fDataContainer` has a tuple as
  phase shift [`C16_fdata_copy_phase_broken`].
* `filter` that fails halfway leaves the earlier combinations filtered [`C72_filter_error`], and the offending one with what the
  function wrote into its argument [`C87_failed_broken`].
* Iterators (`zip`, generators) given to the constructors are taken as empty without an error; given to `subs` they are used up by
  the first expression [`C88_iterator_broken`, `C88_form_subs_broken`, `C88_fform_subs_broken`].
* `get_maxval` and `get_minval` ignore every combination whose first value is `nan`; `normalize_data` and `subtract_min` then
  overwrite numbers by 0 or `-inf` without an error [`C93_nan_first_broken`, `C93_hidden_broken`]; data whose largest value is 0
  become `nan` [`C93_zero_broken`].
* Two processes that save to the same file at the same time: `FileNotFoundError`, or a file that mixes both libraries
  [`C92_removed_broken`, `C92_mixture_broken`].
* Two processes that generate model functions in the same folder at the same time: `FileExistsError`, or a folder that mixes the
  libraries of both, from which `load_model_func` makes a function that belongs to neither formula [`C129_same_folder_broken`,
  `C129_mixture_broken`, `C129_mixture_loaded_broken`].
* Loading while another process saves under the same names: a cost without its gradient, or a model with values of the old and of the
  new formula, and no exception [`C130_gradient_broken`, `C130_model_broken`].
* A call that writes uncontracted transforms under a prefix used before for another angle of incidence, when it is interrupted between two
  files, leaves a mixture which is contracted without an exception to formulas of no angle of incidence [`C132_mixture_broken`].  So do two
  processes that write under the same prefix [`C133_same_prefix_broken`], and contracting while another process writes
  [`C133_during_broken`].
* `KeyboardInterrupt` during `scale_data`, `subtract_min`, `phase_shift_data`, `phase_shift_fdata`, `apply_arbitrary_scale` can leave a
  container that is neither as before nor as after the call [`C134_scale_broken`, `C134_subtract_broken`, `C134_shift_broken`,
  `C134_fdata_broken`, `C134_formula_scale_broken`]; in particular points out of order, which later calls other than `phase_shift_data` do
  not repair.
* With linear interpolation `dat_to_fdat` of points at unequal angles (in particular after `phase_shift_data` by an angle that is not a multiple
  of the spacing) is not exact [`Unequal.C135_inexact`]; the error is at most of second order in the spacing [`C135_fourier`].
* Threads that use one `DataContainer` without a lock can lose an update of the data that the recorded scale contains
  [`C136_lost_update_broken`] and can leave points out of order [`C136_order_broken`]; with a lock around each call they cannot
  [`C136_in_turns`].
* Threads that use one `fDataContainer` without a lock can lose an update [`C143_lost_update_broken`] and can leave its combinations turned
  by different angles [`C143_torn_broken`]; with a lock around each call they cannot [`C143_in_turns`].
* Threads that use one `FormContainer` or `fFormContainer` without a lock can undo a substitution [`C144_lost_substitution_broken`] and can
  leave the components of one combination after different calls [`C144_torn_component_broken`]; with a lock they cannot
  [`C144_formula_in_turns`, `C144_fourier_in_turns`].
* With the default cubic interpolation the error is of fourth order in the spacing [`C137_fourier`].
* A scan from -180 to 180 degrees keeps both of its ends, which are one direction, without a warning, and `dat_to_fdat` with the default
  interpolation raises ValueError [`C139_scan_broken`].
* A thread that reads a `DataContainer` while another calls `subtract_min` or `scale_data` can get some combinations from before and others from
  after the call, or new data with the old scale [`C138_subtract_broken`, `C138_scale_broken`].  The same holds for Fourier data during
  `phase_shift_fdata` and for formulas during `apply_arbitrary_scale` [`C140_fdata_broken`, `C140_scale_broken`].
* When two processes save the same file, one of them can empty the file after the other has finished it, while a third process is
  running the code in it [`C96_same_file_broken`].
* Cost functions take the address of their argument: integer arrays, slices with a step and arrays that are too short give wrong
  values without an error [`C86_integers_broken`, `C86_slice_broken`, `C86_short_broken`]; model functions convert.
* `phase_shift_fdata` turns the signal opposite to `phase_shift_data` [`C22_directions_disagree`].
* `form_to_fform` is wrong or fails for formulas that are not sums of products: `x*cos(phi)` alone, bare powers, bare
  symbols in a sum [`C26_*_broken`].
* Formula containers with an all-number array cannot be copied or evaluated [`C29_numeric_array`, `C33_numeric_arrays_partial`].
* `M` is dropped when Fourier formulas are evaluated, copied, merged, saved or loaded: only `M = 16` works
  [`C29_other_M`, `C33_other_M`, `C34_other_M`, `C34_fdata_other_M`, `C54_*_broken`, `C76_other_M_broken`].
* `load_data_and_fourier_transform` and its dark variant fail for every `scale != 1` [`C35_scale_broken`].
* `rotation_matrix3` truncates the axis when it is an integer array [`C38_integer_axis_broken`], so that the result is a rotation only for
  coordinate axes or a zero angle [`C38_integer_rotation_iff`]; `rotation_matrix3symb` does the same [`C38_symbolic_integer`];
  `rotation_matrix_from_two_vectors` returns minus the identity for opposite vectors [`C39_antiparallel_broken`] and,
  for `accuracy <= 0`, the rotation by the opposite angle, sometimes without a warning [`C39_accuracy_broken`].
* `make_tensor_complex` leaves symbols alone that have other assumptions [`C43_other_assumptions_broken`].
* `gen_P_just_dipole` returns a quadrupole moment that `make_form_from_P_and_Q` rejects [`C65_just_dipole_broken`].
* `fformgen` uses a geometry turned by pi relative to `formgen`: odd components change sign [`C53_broken`].
* The quadrupole tensors of `C_3v` and `D_3` use another axis setting than the dipole tensors [`C69_*_broken`].
* A library saved again under a path already loaded in the process is not reloaded [`C59_reload_broken`]; a name without slash
  is not found [`C59_bare_name_broken`]; leftover gradient files are picked up [`C59_stale_gradient_broken`].
* A missing or incomplete model folder silently gives a wrong model [`C71_missing_folder_broken`]; combination names with
  an underscore collide [`C58_underscore_broken`]; a negative `max_terms_per_file` gives the zero model
  [`C58_negative_terms_broken`].
* Interrupting `gen_model_func` leaves a folder from which a new process loads a wrong model without any error
  [`C78_model_broken`]; interrupting the generation of a gradient leaves a new cost with an old gradient [`C78_gradient_broken`].
* `gen_model_func` removes the old folder before it can fail [`C79_model_broken`]; so does a chunked cost of a container without
  combinations with its file [`C79_chunks_broken`].
* The basinhopping routines remove `minimizer_kwargs` from the caller's dictionary [`C61_basinhopping_broken`].
* Data with a larger `M` than the formula are compared at shifted frequencies [`C62_broken`].
* `easy_plot` with no combination draws four empty cells [`C63_no_combination_broken`]; containers beyond the number of parameter
  dictionaries are not drawn [`C63_undrawn_broken`]; `easy_polar_plot` of one combination fails [`C73_single_broken`].
* `DataContainer.as_pandas(index='multi')` (the default, used by `repr`) shows every combination at the angles of the first one
  [`C74_data_multi_broken`], raises `ValueError` when the numbers of points differ [`C74_data_multi_exact`] and `IndexError` on an
  empty container [`C74_data_errors`]; an unknown `index` raises `UnboundLocalError`.

## Plan per property

| id | what is modelled | how it is proved |
|----|------------------|------------------|
| C01, C02, C03, C04 | `DataContainer.__init__` as a pipeline of list functions on points in `Except` | lemmas per stage (sublist / permutation / range), composition; C03 is refuted by a witness and proved for angles already in [0,2pi) |
| C05, C06, C07, C11, C72 | operations as a transition function on container states, errors return the state reached | induction over operation lists with an invariant; C07 refuted + partial |
| C08 | `phase_shift_data` | permutation argument, uniqueness of sorted lists with distinct keys |
| C09, C10 | `get_maxval` &c. as folds | induction over the dictionary |
| C12, C13, C14 | getters, coercion, `dat_add`/`dat_subtract` | case analysis on keys, list lemmas |
| C15 | a heap of arrays with references; constructor and getters as heap programs | frame argument over arbitrary write sequences; refuted for `get_values/get_items('radians')`, proved for the others |
| C16 | `copy` including the stray tuple | refuted + partial |
| C17–C19 | `fDataContainer` over `ℂ` | induction over operation lists |
| C20–C22 | `fdat_to_dat`, `dat_to_fdat` with the interpolant as a parameter that reproduces nodes | discrete orthogonality of roots of unity; C22 refuted, sign-flipped version proved |
| C23 | phase shifts of the three containers | exponential identities |
| C24 | the lookup table, generated verbatim from the source | exact Gaussian-rational Laurent polynomial arithmetic, whole table checked by the kernel, lifted to all real angles |
| C25–C28 | `_fourier_transform` on an expression syntax | semantics-preservation by induction on the term list; C26 refuted + partial, with the formula that is transformed in place of the given one (`C26_exact`) |
| C29–C34, C64, C76, C77 | formula containers, conversions, persistence, merging | structural induction on expressions, dictionary lemmas |
| C35 | loading pipeline | case analysis; scale option refuted |
| C36, C37 | n-dimensional arrays as functions on index lists, `np.trace` by index insertion, label bookkeeping as in the code | induction over the pair list / rank |
| C38–C40 | Rodrigues matrix, two-vector rotation, Levi-Civita | real algebra; C39 refuted for antiparallel vectors + partial |
| C41 | `union` | induction |
| C42, C43 | symbolic tensors, solver oracle | substitution lemmas |
| C44–C51, C65, C66 | `formgen`, `gen_S`, legacy generators on expression trees | contraction theorem, ring algebra, homogeneous degree argument |
| C52–C54 | `fformgen` convolutions with Python index wrap-around | band-limit argument; C53 refuted (shift by pi) + exact relation; C54 refuted |
| C81 | rounding of every number in the expanded tree | induction over terms; triangle inequality |
| C82 | composition of the tables, `make_tensor_*`, `formgen`, `form_to_fform`, `fformgen` | invariance of the tabulated tensors (C55) carried through the intensity; uniqueness of Fourier coefficients |
| C83 | composition of `fform_to_fdat`, `fform_to_dat`, `dat_to_fdat`, `gen_cost_func` | the values of C29 put into the misfit of C57; round trip C21 for the sampled version; zero of a sum of squares |
| C84 | composition of the tables, `make_tensor_*`, both ways to Fourier formulas, `gen_cost_func` | elements of the tables are homogeneous linear forms; the intensity scales with the squared modulus; equal components give equal misfits |
| C85 | `__init__` and `phase_shift_data` on one float array, with NumPy's remainder in binary floating point arithmetic with any precision and nearest rounding | the gap below a float; refuted for negative angles by an explicit float, proved with the closed interval |
| C86 | memory as a function from addresses to 64-bit words, arrays as views (base, stride, length); compiled functions read words at consecutive addresses | reading a contiguous view of floats gives its values; refuted for the other views; `astype(float)` makes them contiguous |
| C87 | the loop of `filter` with a function of the history of its calls that also returns the new content of its argument | induction over the combinations; refuted for the offending combination |
| C88 | an iterable as what it yields at the n-th reading; the constructors read two or three times, `subs` once per expression | equality with `init`/`subs` for collections; refuted for iterators, for all contents |
| C89 | `dat_to_fdat` with any interpolant | finite Fourier sums: conjugation, frequency 0, triangle inequality, Bessel's inequality on the grid |
| C90 | `dat_to_fdat` followed by `gen_cost_func` (C57) | orthogonality of the harmonics on a grid of more than 2M angles: mean squared deviation = cost + residual of the data |
| C91 | file system with names, inodes and bytes; processes as state machines (exists, unlink, open, one byte at a time); schedules as lists of process numbers | invariant over all steps: inodes of different names are different, so a step touches only the file of its process; a measure for termination |
| C92 | the same processes with one file name | in turn: from C91; refuted by schedules given for all names and libraries |
| C93 | `DataContainer` with IEEE values `num`, `inf`, `-inf`, `nan`; `max`/`min` as the loops of Python | induction over the loops with a comparison abstracted for both directions; equality with the finite model by an embedding |
| C94 | `merge_containers` and `gen_cost_func` together | components of the merged containers are those of the parts (C34); C57 for all of them; sum over a flattened list |
| C95 | `apply_phase_shift`, `phase_shift_fdata` and `gen_cost_func` together | C32 and C57; a phase factor has absolute value 1 |
| C96 | the processes of C91 together with processes that have loaded files: a loaded library is the inode it was loaded from | invariant over events: each inode has one name, and only the process that made it writes to it; refuted by a schedule for all names and libraries |
| C97 | `dat_to_fdat` together with `scale_data`, `subtract_min`, `dat_subtract`, `dat_add` | C89 for both data; weighted sums are linear; orthogonality of the harmonics on the grid for constants |
| C98 | `dat_to_fdat` with rounded products, sums and stored parts (`FloatFourier`) | relative error of rounding to nearest; induction over the sum; triangle inequality in the root of the sum of squares |
| C99 | `transform` on the table entries, `formgen` on the result | value of `transform` is the action of the matrix; conjugation of the group; C45 and C82 for the turned crystal |
| C100 | `scale_data`, `subtract_min`, `normalize_data` with rounded products, differences and quotients (`FloatArith p`) | monotonicity of rounding, relative error of a rounding, induction over the factors; exactness of `normalize_data` refuted by the value 49 |
| C101 | `gen_model_func`, `load_model_func`, `as_pandas`, `gen_cost_func` and the functions of `examples/fit_model_func_example.py` together | C58, C74 and C95; sums over rows regrouped by combination |
| C102 | the selection of `examples/fit_partial_fform_example.py`, then `gen_cost_func` | the loop is a filter of the items; C57 for the result |
| C103 | `dat_to_fdat`, the fits and `fform_to_dat` together | C60 and C90, the series of C20 as a pattern |
| C104 | tables, `make_tensor_real/complex`, `transform`, `formgen`, Fourier formulas, cost | completeness of the tables (C55) gives parameters of the tensor of lower symmetry; then the crystals are equal, hence intensities (C44), components (C82) and misfits (C57) |
| C105 | `particularize`, tables, `make_tensor_real/complex`, `transform`, `formgen`, cost | C104 in both directions: the symmetric part of an invariant tensor is invariant, hence a value of the particularized tensor (C55_particularized), and intensities depend on symmetric parts only (C50) |
| C106 | `rotation_matrix_from_two_vectors`, `transform`, tables, `formgen` | rotations commute with vector products (the adjugate is the transpose), so the matrix conjugates the rotation about v to the rotation about z; a reflection is determined by its normal; then C45, C82, C99 |
| C107 | `formgen`, `transform`, `rotation_matrix_from_two_vectors` with rounding | the field is linear in the tensors and not longer than the tensors (Cauchy-Schwarz, rotations keep lengths, projections shorten); telescoping products of M = Q + D; C106 |
| C108 | `dat_to_fdat`, `gen_cost_func`, the fits as in C103 | misfits are squares of Euclidean distances (C90), triangle inequality; Parseval's identity on any grid with more than 2M angles; Cauchy-Schwarz for single angles |
| C109 | `FourierFormulas` (both ways to Fourier formulas), `scale_fdata`, `gen_cost_func` | the intensity is quadratic in the tensors; table entries are linear in the parameters; C57 |
| C110 | `_save_fform_dict`, `_load_fform_dict`, `generate_contracted_fourier_transforms`, `load_fform` | induction over the dictionary and the arrays |
| C111 | cost function, gradient, fits | formulas are continuous functions of real parameters; compactness of the box; Fermat's theorem at an interior minimum |
| C112 | the text of the C files | a lexer and an evaluator for the part of C that is used; replacing `conjugate` changes the words only; every function in the file has its value, in order; witness `(a + I b)²` |
| C113 | the two fitting scripts as compositions of the modelled functions | C35, C89, C32, C102, C60, C103 put together; the least squares of the values and of the components differ by a constant (C90); existence of nearly best rational parameters by compactness and density |
| C114 | the two scripts as compositions of the modelled functions, and lmfit's parameters | the sorted lists of symbols of both processes agree when names differ (C31), C57 and the saved file give the cost, then as in C113 |
| C115 | the two scripts as compositions of the modelled functions | C55 and C96 give the tensors that the symmetric real entry takes, C69 turns them, C11/C103 give the patterns of the stored formula, C113 the best fit, C30 the drawn curves |
| C116 | the functions of fformgen as for C52 | a property that sums, products, conjugation and substitution keep holds for all elements of all arrays (Proofs/FformgenAll); substitution removes the symbols of the field and of the angle |
| C117 | the scripts, on top of the models of fformgen, particularize, make_tensor_real, transform and fit_fform_example | C81_patterns with a constant that is uniform on bounded parameters (compactness) gives nearness of patterns; the fit is compared with C113 by the triangle inequality for the root mean square over the sample points |
| C118 | both scripts, on top of the models of gen_model_func, load_model_func, as_pandas, dat_to_fdat and fdat_to_dat | the loaded functions are those saved (C58, C60), the cost is the misfit of the turned formula (C101), Parseval gives the deviation, and angles are reduced modulo a turn; the comparison with crystals uses C115 |
| C119 | the three scripts, on top of the models of load_data, easy_plot, easy_polar_plot, as_pandas, dat_to_fdat, load_fform and fform_to_form | composition of C63, C73, C74, C89 and C28; the tick of the polar figure by relating the values before and after scaling and turning |
| C120 | `fdat_to_dat` with rounded sums and products; the constructor as in C85 | error of a rounded sum by induction over the frequencies (as in C98); the constructor keeps increasing angles within a turn; the round trip from C98 |
| C121 | `merge_containers` and the conversions | every conversion maps the values one by one, and mapping values commutes with building the dictionary of all entries; the constructors record the same scale and phase |
| C122 | the compiled functions with every operation rounded, for all orders of evaluation (a relation) | error bound by induction over the evaluation; the exact value is the misfit or its derivative as in C112 |
| C123 | the constructor once more with complex arrays among the values | simulation of every step by the step on real parts, as long as no complex angle is used; otherwise the first step that uses one raises |
| C124 | `dat_to_fdat` and the compiled cost, both in floating point arithmetic | C98 and C122 together; roots of misfits are distances, so the triangle inequality bounds the deviations (C90, C108) |
| C125 | `DataContainer`, its methods, `dat_to_fdat`, the fits, `load_data` and the scripts | normal form of a set of points is unique (sorted, in [0, 2π), distinct), so the stored dictionaries are permutations of each other; every method commutes with permutations of the items; the fits read the data by key only |
| C126 | `formgen`, `fformgen`, `form_to_fform` and `transform` | the fields at -θ are those at θ with the signs of x and y changed, which is half a turn about z; at π - θ with the sign of z changed; quadratic forms keep such signs, intensities do not see them |
| C127 | `form_to_fform`, `fformgen`, `fform_to_dat`, `fform_to_fdat`, `dat_to_fdat` | components are integrals of a nonnegative function (C25, C52); conjugation and modulus of integrals; at most 17 harmonics (C48) |
| C128 | processes with the steps of `_fixed_autowrap_model` (`exists`, `rmtree`, `mkdir`, `copy`) and any schedule | invariant for each process by induction on the schedule; number of remaining steps; C58 for loading |
| C129 | the same processes with one folder | in turn: from the invariant; refuted by schedules given for all libraries with the same names, and for two formulas |
| C130 | loading as a sequence of operations (list a folder, look whether a file exists, load a file), each on the disk of its moment; the other process makes any number of steps in between | C78 for each moment and an invariant of what is loaded; refuted for formulas with two values |
| C131 | formgen, the Fourier formulas and the cost of chosen combinations, as for C44, C52 and C102; SameSeen, OfField, OfWave and OfMoment say which elements are seen | the intensity is the squared modulus of one amplitude in the axes of the crystal, whose factors vanish for unseen elements; at 45 degrees of azimuth none of the others vanishes |
| C132 | the functions that write arrays and formulas as sequences of steps (create a file, which empties it; complete it), cut at any step; reading an incomplete file raises an arbitrary exception | what each file holds after n steps, and C52 for each combination separately; refuted by a dipole tensor whose PP and SP intensities are the squared sine of the angle |
| C133 | the same steps, interleaved in any way; contracting reads each of the four files at its own moment | steps of other processes concern other files; for the same prefix refuted as in C132 |
| C134 | each method as the list of the states of the instance before it and after each assignment (`moments`); the last state is that of the models of C05, C17, C23 (C134_completed) | the states of a loop over a dictionary are mixtures of old and new items; refuted for any container with two different angles, two first harmonics, or two equal formulas |
| C135 | `interp1d` of kind 'linear' with extrapolation (`linearInterp`), put in the place of the interpolation of C20 | the error of a chord from the second derivative by Rolle's theorem twice; the error of the components from that of the values by the best-approximation identity of C89; the fit by C108 |
| C136 | the methods of `DataContainer` as sequences of atomic accesses to the attributes and to dictionary objects (`Threads.Prog`), threads and schedules (`World.run`) | a call run alone is the call of the sequential model (`finish_prog`), so turns compose; for any schedule an invariant that labels every stored value with the calls that may have contributed to it, kept by every access; the wrong schedules are given for every container |
| C137 | `interp1d(..., kind='cubic', fill_value='extrapolate')` as the not-a-knot cubic spline: equations for the second derivatives at the angles, one cubic polynomial per interval | the equations are diagonally dominant after elimination of the outer unknowns, which gives existence, uniqueness and a bound of the solution by the right sides; Taylor's formula gives the right sides for a smooth function, Rolle's theorem the error of one polynomial; Parseval's identity passes from the values to the components |
| C138 | the states of the instance at the moments of a list of calls by one thread (`trace`), built from those of one call (C134) | for each call and each combination one moment before which the old and from which on the new points are read; these are put together over the list of calls by induction |
| C139 | the constructor of C01–C04 and `dat_to_fdat` with the cubic interpolation of C137 | an interpolation that raises for some combination makes the whole call raise; the operations keep the numbers of points and the equalities between angles; the surviving duplicates are those of C03 |
| C140 | the states of Fourier data and formulas at the moments of a list of calls by one thread (`trace`), built from those of one call (C134) | for each call and each combination one moment before which the old and from which on the new array is read; induction over the list of calls |
| C141 | `loadDataAndFourierTransform` with `cubicInterp`, files as lists of rows | loading of points at any angles, dark subtraction and `subtract_min` as a lowered zeroth component, then C137 |
| C142 | SciPy's `interp1d` for the kinds that return measured values (`stepInterp`), as called by `dat_to_fdat` | monotone counting gives the position of the chosen point; the derivative of a pattern is bounded by the sum of its frequencies times the moduli of its components; then as C137 |
| C143 | the methods of `fDataContainer` as sequences of atomic accesses (`FThreads.Prog`), threads and schedules (`FThreads.World.run`) | as C136; the labels are kept for each combination, because `phase_shift_fdata` assigns one combination after the other |
| C144 | the methods of `FormContainer` and `fFormContainer` as sequences of atomic accesses (`FormThreads.Prog`), threads and schedules (`FormThreads.World.run`) | as C143; for Fourier formulas the labels are kept for each component, because the inner loop of `subs` and `apply_phase_shift` reads the attribute again for each |
| C145 | `DataContainer.init` with `normal_to_oblique`, `datToFdat` with `cubicInterp`, `loadDataAndFourierTransform` with dark files and `min_subtract`, the intensities of `Spec/Intensity.lean` | the points of a filled in combination are those of its partner moved by a quarter turn (C13), hence those of `phase_shift_data`; then the bound of C137 for unequal angles, the relation of C49 and the degree 8 of the intensities; `min_subtract` by linearity (C97), dark files because sorting by angle does not look at the values |
| C55, C56, C68, C69 | tensor tables generated verbatim from the source | generator invariance and completeness by linear algebra certificates checked in the kernel, lifted to all tensors; C69 refuted for two groups |
| C57–C62, C70, C71, C75 | cost/model/gradient construction, chunking, directory contents, fit wrappers with optimizer oracle | sums over lists, permutation invariance, state machine over files and loaded libraries; C59, C61, C62, C71 refuted + partial |
| C78, C79 | the saving calls as sequences of single steps on the disk, interrupted after any number of them | invariant over steps; refuted for models and gradients, proved for the cost function; the whole sequence is proved equal to the call |
| C80 | functions that load at each call; a relation that contains every sequence of calls and of changes of the disk | invariant of the relation: the loader's memory only grows |
| C63, C73 | the figure as a value | case analysis on the number of combinations, induction over lists |
| C74 | a frame as its list of rows | blocks of a duplicate-free dictionary, induction over it |
| C67 | shape of the formulas of `formgen` after expansion | monomial normal form; membership in the table's keys |

Properties that the code violates are kept in full in `properties.jsonl`; the negation is proved with a
concrete witness and the part that holds is proved under the suffix `_partial`.

## Axioms of each property theorem

Obtained with `Lean.collectAxioms` (what `#print axioms` prints); names without the prefix `Shgpy.`.

**none**: `C43_map_to_real`

**propext**: `C15_fform_getter_contents`, `C58_zero_terms`

**Quot.sound, propext**: `C06_recorded`, `C06_scale_phase_bookkeeping`, `C06_untouched`, `C10_calls`, `C110_dict`, `C134_scale_broken`, `C138_last`, `C138_scale_broken`, `C37_rank_zero`, `C58_negative_terms`, `C63_no_combination_broken`, `C73_single_broken`, `C77_units`, `C87_filter`, `C87_pure`, `C91_finished`, `C91_separate`, `C92_in_turn_partial`, `C93_nan_first_broken`, `C96_in_use_partial`

**Classical.choice, Quot.sound, propext**: `C01_construction_normal_form`, `C02_construction_preserves_points`, `C02_int_radians_truncated`, `C03_duplicates_can_survive`, `C03_no_duplicate_angles_partial`, `C03_survivors`, `C04_acceptance`, `C05_normal_form_invariant`, `C06_units`, `C07_exact`, `C07_offset_bookkeeping_partial`, `C07_offset_not_rescaled`, `C07_right_iff`, `C08_phase_shift_compose`, `C08_phase_shift_inverse`, `C08_phase_shift_units_and_turns`, `C09_maxval`, `C09_minval`, `C09_pc_extrema`, `C100_exact`, `C100_normalize_broken`, `C100_normalize_partial`, `C100_scale_history`, `C100_subtract_min`, `C101_model_fit`, `C102_cost`, `C102_other_M`, `C102_selection`, `C102_split`, `C103_basinhopping`, `C103_basinhopping_jac`, `C103_basinhopping_jac_with_bounds`, `C103_basinhopping_with_bounds`, `C103_curve`, `C103_dual_annealing`, `C103_least_squares`, `C104_complex`, `C104_cost`, `C104_crystals`, `C104_never_worse`, `C104_patterns`, `C104_real`, `C104_tensors`, `C105_cost`, `C105_patterns`, `C105_symbols`, `C106_axis`, `C106_matrix`, `C106_mirror`, `C107_axis`, `C107_matrix`, `C107_size`, `C107_tensors`, `C108_basinhopping_with_bounds`, `C108_cost`, `C108_dual_annealing`, `C108_least_squares`, `C109_best`, `C109_multiplied`, `C109_scaled`, `C10_normalize`, `C10_subtract_min`, `C110_contracted`, `C110_rounded`, `C111_bounded`, `C111_dual_annealing`, `C111_least_squares`, `C111_stationary`, `C112_cost_partial`, `C112_empty`, `C112_expression`, `C112_gradient_partial`, `C112_model_partial`, `C112_real_powers`, `C112_unique`, `C113_fit`, `C113_partial_formula`, `C114_invalid_name`, `C114_two_processes`, `C115_best_tensor`, `C115_curves`, `C115_formula`, `C115_orientation`, `C116_symbols`, `C116_symbols_rounded`, `C116_symbols_symb`, `C117_best_dipole`, `C117_best_quadrupole`, `C117_dipole`, `C117_quadrupole`, `C118_best_tensor`, `C118_missing`, `C118_two_processes`, `C119_figures`, `C119_figures_errors`, `C119_frames`, `C119_printed`, `C11_rejected_fdata_operations`, `C11_rejected_operations`, `C120_accuracy`, `C120_double`, `C120_exact`, `C120_products`, `C120_round_trip`, `C121_dat_to_fdat`, `C121_fdat_to_dat`, `C121_fform_to_dat`, `C121_fform_to_fdat`, `C121_fform_to_form`, `C121_form_to_dat`, `C121_form_to_dat_clash`, `C121_form_to_fform`, `C122_cost`, `C122_expression`, `C122_gradient`, `C122_minimum`, `C122_products`, `C122_units`, `C123_container`, `C123_unused`, `C123_used`, `C124_double`, `C124_pipeline`, `C125_container`, `C125_cost`, `C125_files`, `C125_fits`, `C125_fourier`, `C125_loading`, `C125_operations`, `C125_scripts`, `C126_both_sides`, `C126_files`, `C126_generators`, `C126_other_side`, `C126_reversed`, `C126_transform`, `C127_components`, `C127_curve`, `C127_sampled`, `C128_calls`, `C128_finished`, `C128_libraries`, `C128_loaded`, `C128_separate`, `C129_in_turn_partial`, `C129_mixture_broken`, `C129_same_folder_broken`, `C12_degrees`, `C12_rebuild`, `C130_cost`, `C130_gradient_missing`, `C130_gradient_partial`, `C130_model_partial`, `C130_still`, `C131_cost`, `C131_formulas`, `C131_normal`, `C131_oblique`, `C131_seen`, `C131_unseen`, `C132_contraction`, `C132_formulas_file`, `C132_fresh_partial`, `C132_interrupted`, `C132_mixture_broken`, `C132_repair`, `C132_same_angle_partial`, `C132_saved`, `C132_whole`, `C133_during`, `C133_during_broken`, `C133_during_fresh_partial`, `C133_same_prefix_broken`, `C133_separate`, `C134_completed`, `C134_data_partial`, `C134_fdata_broken`, `C134_fdata_partial`, `C134_formula_scale_broken`, `C134_formula_scale_partial`, `C134_formulas`, `C134_history`, `C134_rewrite`, `C134_shift_broken`, `C134_shift_partial`, `C134_shift_repair`, `C134_subtract_broken`, `C135_fit`, `C135_fourier`, `C135_interpolation`, `C135_turned`, `C136_in_turns`, `C136_lost_update_broken`, `C136_order_broken`, `C136_shape`, `C136_values_partial`, `C137_fit`, `C137_fourier`, `C137_grid`, `C137_interpolation`, `C137_round_trip`, `C137_shift`, `C137_simulated`, `C137_spline`, `C137_turned`, `C138_combination_partial`, `C138_order_broken`, `C138_record`, `C138_scales`, `C138_subtract_broken`, `C138_whole_partial`, `C139_domain`, `C139_operations`, `C139_raw`, `C139_scan_broken`, `C139_within_turn_partial`, `C13_normal_to_oblique`, `C140_fdata_broken`, `C140_fdata_partial`, `C140_formula_partial`, `C140_formula_whole`, `C140_last`, `C140_record`, `C140_rewrite`, `C140_scale_broken`, `C140_scales`, `C140_shape`, `C141_fit`, `C141_fourier`, `C142_fit`, `C142_fourier`, `C142_interpolation`, `C142_values`, `C143_in_turns`, `C143_lost_update_broken`, `C143_torn_broken`, `C143_values_partial`, `C144_formula_in_turns`, `C144_formula_values_partial`, `C144_fourier_in_turns`, `C144_fourier_values_partial`, `C144_lost_substitution_broken`, `C144_torn_component_broken`, `C145_crystal`, `C145_dark`, `C145_exact`, `C145_files`, `C145_files_dark`, `C145_files_exact`, `C145_files_fit`, `C145_files_min`, `C145_fit`, `C145_min`, `C145_quarter`, `C14_add`, `C14_add_comm`, `C14_rejects`, `C14_subtract`, `C14_subtract_self`, `C14_subtract_then_add`, `C15_fdata_isolation_partial`, `C15_fdata_live_arrays`, `C15_fform_isolation_partial`, `C15_fform_live_arrays`, `C15_getter_contents`, `C15_isolation_partial`, `C15_live_arrays`, `C15_live_items`, `C16_data_copy_broken`, `C16_fdata_copy_partial`, `C16_fdata_copy_phase_broken`, `C16_fform_copy_independent`, `C16_fform_copy_partial`, `C16_form_copy`, `C17_history_closed_form`, `C17_recorded`, `C17_units`, `C18_acceptance`, `C18_indexing`, `C19_maxval`, `C19_normalize`, `C19_pc_maxval`, `C19_phase_shift_magnitudes`, `C20_grid`, `C20_inverse_sampling`, `C20_zero_points`, `C21_aliasing`, `C21_discrete_transform`, `C21_real_round_trip`, `C21_round_trip`, `C21_single_point`, `C22_directions_disagree`, `C22_phase_shift_partial`, `C23_fdata`, `C23_fform_form`, `C24_table_exact`, `C25_expanded_sums`, `C26_bare_power_broken`, `C26_bare_symbol_broken`, `C26_exact`, `C26_single_cosine_broken`, `C26_sums`, `C26_supported_partial`, `C27_above_16`, `C27_constant_formulas`, `C27_independent_of_M`, `C28_coefficients_partial`, `C28_round_trip`, `C28_second_half_broken`, `C28_series`, `C29_independent`, `C29_missing_symbol`, `C29_numeric_array`, `C29_other_M`, `C29_values`, `C30_agree`, `C30_depends`, `C30_only_phi`, `C30_samples`, `C31_fform_free_symbols`, `C31_form_free_symbols`, `C31_form_order_independent`, `C31_order_independent`, `C32_fform_history`, `C32_fform_step`, `C32_form_history`, `C33_files`, `C33_numeric_arrays_partial`, `C33_other_M`, `C33_round_trip_partial`, `C34_distinct`, `C34_fdata_other_M`, `C34_injective`, `C34_merge`, `C34_mixed_types`, `C34_numbered`, `C34_numbered_clash`, `C34_other_M`, `C35_composition`, `C35_dark_pipeline_partial`, `C35_pipeline_partial`, `C35_read_csv`, `C35_scale_broken`, `C36_contract`, `C36_errors`, `C36_indices`, `C36_order`, `C36_swap`, `C36_tuples`, `C37_composition`, `C37_congr`, `C37_formula`, `C37_identity`, `C37_linear`, `C37_orthogonal`, `C38_additive`, `C38_direction`, `C38_integer_axis`, `C38_integer_axis_broken`, `C38_integer_coordinate_axis`, `C38_integer_rotation_iff`, `C38_orientation`, `C38_rotation_partial`, `C38_symbolic`, `C38_symbolic_integer`, `C38_symbolic_zero_axis`, `C38_zero_angle`, `C38_zero_axis`, `C39_accuracy`, `C39_accuracy_broken`, `C39_antiparallel_broken`, `C39_exact_partial`, `C39_rotation_partial`, `C39_zero_vector`, `C40_components`, `C40_cross_product`, `C40_levi_civita`, `C41_union`, `C42_all`, `C42_all_shapes`, `C42_idempotent`, `C42_keeps`, `C42_last_two`, `C42_last_two_shapes`, `C42_no_solution`, `C42_unchanged`, `C43_complex`, `C43_complex_accepted`, `C43_declared`, `C43_other_assumptions_broken`, `C43_real`, `C44_fields`, `C44_formgen`, `C44_p_component`, `C44_real_nonneg`, `C45_periodic`, `C45_rotation`, `C46_dipole_quadrupole`, `C46_just_dipole`, `C47_phase`, `C47_quadratic`, `C48_degree`, `C49_normal_incidence`, `C50_idempotent`, `C50_symmetric_part`, `C51_errors`, `C52_components`, `C52_errors`, `C52_names`, `C52_reuse`, `C52_symbolic`, `C53_broken`, `C53_exact`, `C53_half_turn_partial`, `C53_normal_partial`, `C54_broken`, `C54_large_M_broken`, `C54_sixteen_partial`, `C54_small_M_broken`, `C55_dipole`, `C55_particularized`, `C55_quadrupole`, `C55_surface`, `C56_surface`, `C57_cost`, `C57_zero_iff`, `C58_chunked_cost`, `C58_files`, `C58_glob`, `C58_loaded_model_partial`, `C58_model`, `C59_cost_partial`, `C59_gradient_partial`, `C60_basinhopping`, `C60_basinhopping_jac`, `C60_basinhopping_jac_with_bounds`, `C60_basinhopping_with_bounds`, `C60_dual_annealing`, `C60_least_squares`, `C60_missing_bounds`, `C60_missing_bounds_jac`, `C60_missing_guess`, `C60_missing_guess_jac`, `C60_names`, `C60_no_parameters`, `C60_repeated_options`, `C60_repeated_options_jac`, `C61_basinhopping_partial`, `C61_dual_annealing`, `C61_least_squares`, `C62_shifted_partial`, `C62_smaller_raises`, `C63_errors`, `C63_layout`, `C63_undrawn_broken`, `C64_fform_contents`, `C64_fform_validation`, `C64_form_validation`, `C65_fields_to_form_partial`, `C65_just_dipole_broken`, `C66_symbols`, `C67_easy_way`, `C67_expanding`, `C67_monomials`, `C68_names`, `C68_parameters`, `C69_C_3v_broken`, `C69_D_3_broken`, `C69_quarter_turn`, `C69_same_setting_partial`, `C70_chunked`, `C70_gradient`, `C70_gradient_or_constant`, `C70_no_parameters`, `C72_filter`, `C72_filter_error`, `C73_errors`, `C73_polar_partial`, `C74_data_errors`, `C74_data_multi_broken`, `C74_data_multi_exact`, `C74_data_multi_partial`, `C74_data_none`, `C74_fdata`, `C74_fform`, `C74_form`, `C74_names`, `C75_cost`, `C75_fit_saves`, `C75_fits`, `C75_gradient`, `C75_load`, `C75_model`, `C76_components_partial`, `C76_missing_symbol`, `C76_other_M_broken`, `C77_data`, `C77_fdata`, `C77_fform`, `C77_form`, `C78_cost`, `C78_cost_steps`, `C78_gradient_partial`, `C78_gradient_steps`, `C78_interrupted_gradient`, `C78_interrupted_model`, `C78_model_partial`, `C78_model_steps`, `C79_cost_partial`, `C79_gradient`, `C79_model_lost`, `C80_calls`, `C80_first_call`, `C80_lazy_call`, `C80_model`, `C80_stable`, `C81_exact`, `C81_multiplied`, `C81_patterns`, `C81_patterns_symb`, `C81_rounding`, `C82_even`, `C82_inversion`, `C82_mirror`, `C82_rotation`, `C82_selection`, `C83_sampled`, `C83_simulated`, `C84_phase`, `C84_sign`, `C84_turned`, `C85_exact`, `C85_range_partial`, `C85_shift_broken`, `C85_shift_partial`, `C85_turn_broken`, `C86_cost_partial`, `C86_model`, `C87_failed_broken`, `C88_collection`, `C88_fform_subs_broken`, `C88_form_subs_broken`, `C88_iterator_broken`, `C88_iterator_names`, `C89_energy`, `C89_real`, `C89_transform`, `C90_least_squares`, `C90_rounded`, `C91_cost_calls`, `C91_cost_files`, `C91_gradient_files`, `C91_prefix_clash`, `C91_prefixes`, `C92_mixture_broken`, `C92_removed_broken`, `C93_arithmetic`, `C93_extrema_partial`, `C93_finite`, `C93_hidden_broken`, `C93_inf_broken`, `C93_maxval`, `C93_minval`, `C93_normalize_partial`, `C93_zero_broken`, `C94_merged_cost`, `C95_orientation`, `C96_same_file_broken`, `C97_combine`, `C97_combine_default`, `C97_scale`, `C97_scale_default`, `C97_subtract_min`, `C97_subtract_min_default`, `C98_accuracy`, `C98_fit`, `C98_single`, `C99_mirror`, `C99_rotation`, `C99_selection`, `C99_tables`, `C99_turned`, `FitCases.C111_unbounded`, `FitCases.C112_complex_power_broken`, `FitCases.C129_mixture_loaded_broken`, `FitCases.C130_gradient_broken`, `FitCases.C130_model_broken`, `FitCases.C58_negative_terms_broken`, `FitCases.C58_underscore_broken`, `FitCases.C59_bare_name_broken`, `FitCases.C59_reload`, `FitCases.C59_reload_broken`, `FitCases.C59_stale_gradient`, `FitCases.C59_stale_gradient_broken`, `FitCases.C61_basinhopping_broken`, `FitCases.C62_broken`, `FitCases.C71_missing_folder_broken`, `FitCases.C78_gradient_broken`, `FitCases.C78_model_broken`, `FitCases.C79_chunks_broken`, `FitCases.C79_model_broken`, `FitCases.C86_integers_broken`, `FitCases.C86_short_broken`, `FitCases.C86_slice_broken`, `Unequal.C135_inexact`
