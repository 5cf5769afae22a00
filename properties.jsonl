{"id": "C01", "title": "DataContainer construction yields normal form", "statement": "Whenever DataContainer(iterable, units, normal_to_oblique) returns, every polarization combination holds at least one point, all its angles lie in [0, 2*pi) and are in non-decreasing order.", "quantifier": "every iterable of keyed 2-row arrays (any number of points, any finite angles, int or float dtype), both unit strings, both values of normal_to_oblique", "why_tests_cant": "the angles range over the whole line in any order and number; a test only tries particular arrays", "anchors": ["shgpy/core/data_handler.py:DataContainer.__init__", "shgpy/core/data_handler.py:_modulate_data_dict", "shgpy/core/data_handler.py:_sort_data_dict"]}
{"id": "C02", "title": "DataContainer construction neither invents nor alters measured points", "statement": "For float data without normal_to_oblique, the keys of the container are the keys of the input in order, and the points stored under a key are, up to reordering, a selection of the input points (angle converted to radians, changed only by a multiple of 2*pi; y value unchanged). Nothing is dropped when the input angles of that key are pairwise distinct modulo 2*pi; whenever a point is dropped a kept point has the same angle modulo 2*pi and a warning is issued.", "quantifier": "every accepted float input, every key, every point", "why_tests_cant": "loss or mispairing of (angle, value) depends on the particular ordering and coincidence pattern of arbitrarily many points", "anchors": ["shgpy/core/data_handler.py:DataContainer.__init__", "shgpy/core/data_handler.py:_remove_duplicates", "shgpy/core/data_handler.py:_convert_data_dict_to_radians", "shgpy/core/data_handler.py:_sort_data_dict"]}
{"id": "C03", "title": "No duplicate angles after construction", "statement": "After construction the angles stored for a polarization combination are pairwise distinct (the duplicate removal that the warning 'Duplicate values encountered' announces).", "quantifier": "every accepted float input and every key", "why_tests_cant": "duplicates may appear anywhere in arbitrarily long inputs, at angles that only coincide after reduction modulo 2*pi", "anchors": ["shgpy/core/data_handler.py:DataContainer._remove_duplicates", "shgpy/core/data_handler.py:_modulate_data_dict"]}
{"id": "C04", "title": "DataContainer acceptance decision", "statement": "DataContainer(...) raises ValueError exactly when: units is not literally 'radians' or 'degrees', or some key is not a str, or some value is not a 2-D non-object array with two equally long leading rows, or some value has no points (under normal_to_oblique: some value that is not overridden by a later one for the same combination), or normal_to_oblique is requested and the upper-cased two-letter key prefixes are neither {PP,PS,SP,SS} nor one of PP/SS with one of PS/SP. No other exception is raised.", "quantifier": "every input iterable (string and non-string keys, arrays of real numbers of any shape class, object arrays, non-arrays; complex arrays: C123), every units string, both flags", "why_tests_cant": "the accepted set is infinite and is cut out by a conjunction of conditions", "anchors": ["shgpy/core/data_handler.py:DataContainer._check_angle_units", "shgpy/core/data_handler.py:_check_defining_iterable", "shgpy/core/data_handler.py:_coerce_to_oblique_incidence"]}
{"id": "C05", "title": "Normal form survives every history of DataContainer operations", "statement": "Starting from any constructed container, after any sequence of scale_data, phase_shift_data, subtract_min, normalize_data and filter calls (including calls that raise), the key list is unchanged, every key still holds the same number of points, and its angles are still sorted and inside [0, 2*pi).", "quantifier": "every constructed container and every finite sequence of operations with arbitrary arguments", "why_tests_cant": "the set of histories is infinite; each operation rebuilds the arrays", "anchors": ["shgpy/core/data_handler.py:scale_data", "shgpy/core/data_handler.py:phase_shift_data", "shgpy/core/data_handler.py:subtract_min", "shgpy/core/data_handler.py:normalize_data", "shgpy/core/data_handler.py:filter"]}
{"id": "C06", "title": "Scale and phase bookkeeping reconstructs the data", "statement": "After any sequence of scale_data, normalize_data and phase_shift_data calls, the current points are exactly the original points with every y multiplied by get_scale() and every angle moved by get_phase_shift('radians') modulo 2*pi.", "quantifier": "every constructed container and every finite sequence of those calls", "why_tests_cant": "bookkeeping drift shows only on particular interleavings of unboundedly many calls", "anchors": ["shgpy/core/data_handler.py:scale_data", "shgpy/core/data_handler.py:normalize_data", "shgpy/core/data_handler.py:phase_shift_data", "shgpy/core/data_handler.py:get_scale", "shgpy/core/data_handler.py:get_phase_shift"]}
{"id": "C07", "title": "Offset bookkeeping reconstructs the data", "statement": "After any sequence of scale_data and subtract_min calls, y_now = get_scale()*y_original + get_offset() for every point, so the recorded scale and offset suffice to recover the original values.", "quantifier": "every constructed container and every finite sequence of scale_data/subtract_min calls", "why_tests_cant": "interleavings of the two operations are unbounded", "anchors": ["shgpy/core/data_handler.py:subtract_min", "shgpy/core/data_handler.py:scale_data", "shgpy/core/data_handler.py:get_offset", "shgpy/core/data_handler.py:get_scale"]}
{"id": "C08", "title": "Phase shifts compose and invert", "statement": "phase_shift_data(a) then phase_shift_data(b) leaves the same points as phase_shift_data(a+b); phase_shift_data(a) then phase_shift_data(-a) restores the original points; shifting by a given in degrees equals shifting by pi/180*a in radians; a full turn changes nothing. If the angles are pairwise distinct the arrays agree element by element.", "quantifier": "every constructed container and all angles a, b", "why_tests_cant": "wrap-around and re-sorting happen at positions depending on the angles", "anchors": ["shgpy/core/data_handler.py:DataContainer.phase_shift_data", "shgpy/core/data_handler.py:_sort_data_dict"]}
{"id": "C09", "title": "Extremum queries are correct", "statement": "get_maxval() returns a polarization combination and value such that no stored y exceeds the value, the value is attained in that combination, and that combination is the first in key order attaining it; get_minval() symmetrically. get_pc_maxval/get_pc_minval do the same for one combination and raise KeyError exactly for unknown ones. On an empty container the queries return no combination.", "quantifier": "every container state and every key", "why_tests_cant": "maximum over arbitrary finite data with ties", "anchors": ["shgpy/core/data_handler.py:get_maxval", "shgpy/core/data_handler.py:get_minval", "shgpy/core/data_handler.py:get_pc_maxval", "shgpy/core/data_handler.py:get_pc_minval"]}
{"id": "C10", "title": "subtract_min and normalize_data postconditions", "statement": "After subtract_min() on a non-empty container the global minimum is exactly 0, all differences between y values are unchanged, and a second call changes nothing. After a successful normalize_data(d) on data with positive maximum the global maximum is exactly d and it is attained by the same polarization combination as before (d > 0).", "quantifier": "every reachable non-empty container state, every d", "why_tests_cant": "depends on where the extremum is located among arbitrarily many combinations and points", "anchors": ["shgpy/core/data_handler.py:subtract_min", "shgpy/core/data_handler.py:normalize_data"]}
{"id": "C11", "title": "Rejected operations change nothing", "statement": "scale_data with a negative factor, normalize_data whose factor is negative, phase_shift_data with an unknown unit string, scale_fdata with a negative factor and phase_shift_fdata with an unknown unit raise ValueError and leave every observable of the container (points, scale, phase shift, offset) as it was; these operations raise for no other reason on non-degenerate data.", "quantifier": "every container state and all arguments", "why_tests_cant": "atomicity is a statement about all states and arguments", "anchors": ["shgpy/core/data_handler.py:scale_data", "shgpy/core/data_handler.py:normalize_data", "shgpy/core/data_handler.py:phase_shift_data", "shgpy/core/data_handler.py:fDataContainer.scale_fdata", "shgpy/core/data_handler.py:fDataContainer.phase_shift_fdata"]}
{"id": "C12", "title": "Angle unit conversions of the getters", "statement": "get_pc/get_values/get_items('degrees') return exactly the 'radians' data with each angle multiplied by 180/pi, in the same order; every returned degree angle lies in [0,360); rebuilding a container from its own get_items('degrees') with units 'degrees', or from get_items('radians') with 'radians', gives the same data, provided its angles are distinct.", "quantifier": "every constructed container and key", "why_tests_cant": "holds for all data, including re-running duplicate removal, reduction and sorting on the output", "anchors": ["shgpy/core/data_handler.py:get_pc", "shgpy/core/data_handler.py:get_values", "shgpy/core/data_handler.py:get_items", "shgpy/core/data_handler.py:_get_data_dict_degrees"]}
{"id": "C13", "title": "normal_to_oblique completes the polarization combinations", "statement": "With normal_to_oblique=True, accepted keys and no repeated directions, the container has exactly the four combinations PP, PS, SP, SS; given combinations keep their points, and a missing XY is the given partner (PP<->SS, PS<->SP) with every angle advanced by pi/2 modulo 2*pi and unchanged y values.", "quantifier": "every accepted pair or quadruple of keyed float arrays (any letter case, any suffix) with angles distinct modulo 2*pi, all points", "why_tests_cant": "the relation must hold for all data and for each of the four admissible key pairs", "anchors": ["shgpy/core/data_handler.py:_coerce_to_oblique_incidence"]}
{"id": "C14", "title": "Container addition and subtraction", "statement": "dat_add/dat_subtract succeed exactly when both containers have the same non-empty key set, the arrays of their first keys have equal shapes and, key by key, the angles agree within numpy.isclose tolerance (a single point in the second container is broadcast); otherwise they raise ValueError (IndexError when both containers are empty). On success, if the first container's angles are distinct, the result has the first container's keys and angles and the pointwise sum/difference of y values. Hence dat_add(dat_subtract(a,b),b) has the data of a, dat_subtract(a,a) is zero, and dat_add is commutative in the y values when the angles are equal.", "quantifier": "all pairs of containers (any keys in any order, any sizes)", "why_tests_cant": "pairing of keys and points across two dictionaries with different insertion orders", "anchors": ["shgpy/core/data_handler.py:dat_subtract", "shgpy/core/data_handler.py:dat_add"]}
{"id": "C15", "title": "Containers are isolated from caller-held arrays", "statement": "Mutating an array that was passed to the constructor, or an array obtained from a getter (get_pc, get_values, get_items in either unit), never changes what the container later returns.", "quantifier": "every container, every getter, every subsequent in-place write to any returned or supplied array", "why_tests_cant": "aliasing is a property of all write sequences through all references", "anchors": ["shgpy/core/data_handler.py:DataContainer.__init__", "shgpy/core/data_handler.py:get_pc", "shgpy/core/data_handler.py:get_values", "shgpy/core/data_handler.py:get_items", "shgpy/core/data_handler.py:fDataContainer.get_values"]}
{"id": "C16", "title": "copy() yields an equal, independent container", "statement": "copy() of a DataContainer, fDataContainer, FormContainer or fFormContainer returns a container with the same keys, values, M, scale and phase shift, on which every further operation behaves as on the original.", "quantifier": "every container state of the four kinds", "why_tests_cant": "must hold after every history, including later operations on the copy", "anchors": ["shgpy/core/data_handler.py:DataContainer.copy", "shgpy/core/data_handler.py:fDataContainer.copy", "shgpy/core/data_handler.py:FormContainer.copy", "shgpy/core/data_handler.py:fFormContainer.copy"]}
{"id": "C17", "title": "Fourier data histories have a closed form", "statement": "After any sequence of scale_fdata, normalize_fdata and phase_shift_fdata calls (including rejected ones), component m of every polarization combination equals the original component times get_scale()*exp(i*m*get_phase_shift('radians')); keys, M and array lengths never change.", "quantifier": "every fDataContainer, every M, every component, every finite sequence of calls", "why_tests_cant": "unbounded histories and all component indices", "anchors": ["shgpy/core/data_handler.py:fDataContainer.scale_fdata", "shgpy/core/data_handler.py:fDataContainer.phase_shift_fdata", "shgpy/core/data_handler.py:fDataContainer.normalize_fdata"]}
{"id": "C18", "title": "Fourier container validation", "statement": "fDataContainer(iterable, M) is accepted exactly when all keys are str and every value is a 1-D complex array of length 2*M+1; otherwise ValueError. In an accepted container the component index n in [-M, M] addresses array element n+M, every such access succeeds and distinct n address distinct elements.", "quantifier": "every M, every iterable", "why_tests_cant": "all array lengths and all M", "anchors": ["shgpy/core/data_handler.py:fDataContainer._check_defining_iterable", "shgpy/core/data_handler.py:n2i"]}
{"id": "C19", "title": "Fourier normalization", "statement": "get_maxval() of an fDataContainer is the largest magnitude over all combinations and components and is attained; after normalize_fdata(d), d>=0, on data that is not identically zero the largest magnitude is exactly d. phase_shift_fdata leaves all magnitudes unchanged.", "quantifier": "every fDataContainer state, all d and angles", "why_tests_cant": "quantifies over all complex data", "anchors": ["shgpy/core/data_handler.py:fDataContainer.get_maxval", "shgpy/core/data_handler.py:normalize_fdata", "shgpy/core/data_handler.py:phase_shift_fdata"]}
{"id": "C20", "title": "Inverse Fourier sampling", "statement": "fdat_to_dat(fdat, N) (N >= 1) returns, for every combination, exactly N points at angles 2*pi*j/N in increasing order (duplicate removal and reordering in the DataContainer constructor leave them untouched) whose values are Re sum_m c_m exp(i m x).", "quantifier": "every fDataContainer, every M, every N >= 1", "why_tests_cant": "N, M and the coefficients are unbounded", "anchors": ["shgpy/core/data_handler.py:fdat_to_dat"]}
{"id": "C21", "title": "Fourier round trip and aliasing", "statement": "For N > 2M, dat_to_fdat(fdat_to_dat(fdat, N), M=M) returns component (c_m + conj(c_-m))/2, i.e. exactly fdat when its coefficients are conjugate-symmetric (real signal). For every N >= 2 the result is the sum of the symmetrized coefficients over all frequencies congruent to m modulo N.", "quantifier": "every fDataContainer, every M, every N >= 2, every interpolant that reproduces its nodes", "why_tests_cant": "discrete orthogonality for all N and M; a test fixes both", "anchors": ["shgpy/core/data_handler.py:fdat_to_dat", "shgpy/core/data_handler.py:dat_to_fdat"]}
{"id": "C22", "title": "Phase shifting commutes with the Fourier transform", "statement": "Phase shifting the data by an angle and then Fourier transforming gives the same fdata as Fourier transforming first and phase shifting the fdata by the same angle.", "quantifier": "every equally spaced data set, every multiple of the grid spacing", "why_tests_cant": "all data and all shifts", "anchors": ["shgpy/core/data_handler.py:DataContainer.phase_shift_data", "shgpy/core/data_handler.py:fDataContainer.phase_shift_fdata", "shgpy/core/data_handler.py:dat_to_fdat"]}
{"id": "C23", "title": "Fourier-space phase shift translates the signal", "statement": "phase_shift_fdata(a), fFormContainer.apply_phase_shift(a) and FormContainer.apply_phase_shift(a, phi) are the same operation: the represented function f(phi) becomes f(phi + a). In particular fform_to_form(fform shifted by a) equals fform_to_form(fform) shifted by a, for every value of all symbols.", "quantifier": "all M, all coefficients/expressions not containing phi, all shift expressions, all values of phi and of the symbols", "why_tests_cant": "an identity between functions of phi for all coefficients", "anchors": ["shgpy/core/data_handler.py:phase_shift_fdata", "shgpy/core/data_handler.py:fFormContainer.apply_phase_shift", "shgpy/core/data_handler.py:FormContainer.apply_phase_shift", "shgpy/core/data_handler.py:fform_to_form"]}
{"id": "C24", "title": "The trigonometric lookup table is exact", "statement": "For every pair (a,b) in the table used by form_to_fform (all a+b <= 8) and every angle, sum_{n=-16}^{16} table[a,b][n+16]*exp(i n phi) = cos(phi)^a sin(phi)^b, and each entry is the Fourier integral 1/(2 pi) int cos^a sin^b e^{-i n phi}.", "quantifier": "every table key, every harmonic, every real angle", "why_tests_cant": "the identity is over all real angles; 45 keys x 33 entries were typed in by a generator", "anchors": ["shgpy/core/_lookup_table.py:_lookup_table", "shgpy/core/_fourier_transform.py:_fourier_transform"]}
{"id": "C25", "title": "form_to_fform is the Fourier transform on expanded formulas", "statement": "If each formula is an expanded sum of at least two products (coefficient free of phi) * cos(phi)^a * sin(phi)^b with a+b <= 8, every product having an explicit coefficient factor, then form_to_fform(form, M) with 8 <= M <= 16 succeeds and its m-th entry equals the m-th Fourier coefficient of the formula, for every value of the parameters; the series sums back to the formula.", "quantifier": "every such formula (any number of terms, any coefficients), every harmonic, every parameter valuation", "why_tests_cant": "the input language is infinite", "anchors": ["shgpy/core/data_handler.py:form_to_fform", "shgpy/core/_fourier_transform.py:_fourier_transform", "shgpy/core/_fourier_transform.py:_get_keyterms", "shgpy/core/_fourier_transform.py:_get_code"]}
{"id": "C26", "title": "form_to_fform is correct on every trigonometric polynomial", "statement": "form_to_fform returns the Fourier coefficients (or raises) for every formula polynomial in cos(phi), sin(phi) of degree at most 8, including single terms, bare powers such as cos(phi)**2 + x*sin(phi)**2, and phi-free summands.", "quantifier": "every formula polynomial in cos(phi), sin(phi)", "why_tests_cant": "correctness depends on the syntactic shape of terms", "anchors": ["shgpy/core/_fourier_transform.py:_fourier_transform", "shgpy/core/_fourier_transform.py:_get_code"]}
{"id": "C27", "title": "form_to_fform and the number of frequencies", "statement": "form_to_fform(form, M): for M <= 16 the m-th entry does not depend on M; for M > 16 it raises as soon as some formula depends on phi (IndexError, or KeyError if a formula outside the table is met first), and succeeds otherwise with only the zero-frequency entry nonzero.", "quantifier": "every form, every M", "why_tests_cant": "M ranges over all naturals", "anchors": ["shgpy/core/data_handler.py:form_to_fform", "shgpy/core/_fourier_transform.py:_fourier_transform"]}
{"id": "C28", "title": "Formula round trip through Fourier space", "statement": "fform_to_form(form_to_fform(form, M)) evaluates to the same number as form for every phi and every parameter valuation, for supported forms and 8 <= M <= 16; and form_to_fform . fform_to_form is the identity on Fourier coefficients.", "quantifier": "every supported form, all valuations, all phi", "why_tests_cant": "functional identity over all formulas", "anchors": ["shgpy/core/data_handler.py:form_to_fform", "shgpy/core/data_handler.py:fform_to_form", "shgpy/core/data_handler.py:_formula_from_fexpr"]}
{"id": "C29", "title": "fform_to_fdat evaluates the Fourier formula", "statement": "fform_to_fdat(fform, subs), for an fform where no combination consists of plain numbers only, raises KeyError iff a free symbol of fform is missing from subs, and otherwise, for M = 16, returns component m equal to the value of the m-th formula at subs, independently of the order of substitution and of extra entries in subs; for M != 16 it raises ValueError. If a combination consists of plain numbers only, it raises AttributeError.", "quantifier": "every fFormContainer, every M, every substitution dictionary of numbers", "why_tests_cant": "all formulas and substitution orders", "anchors": ["shgpy/core/data_handler.py:fform_to_fdat", "shgpy/core/data_handler.py:fFormContainer.subs"]}
{"id": "C30", "title": "Two routes from a formula to data agree", "statement": "form_to_dat(form, subs, N) raises ValueError unless after substitution the only remaining symbol is phi; on success it samples Re f at 2*pi*j/N. For supported forms that still contain phi after substitution it returns the same DataContainer as fform_to_dat(form_to_fform(form), subs, N).", "quantifier": "every supported form, every substitution, every N >= 1", "why_tests_cant": "functional identity", "anchors": ["shgpy/core/data_handler.py:form_to_dat", "shgpy/core/data_handler.py:fform_to_dat", "shgpy/core/data_handler.py:form_to_fform"]}
{"id": "C31", "title": "Free symbol lists", "statement": "get_free_symbols() of FormContainer/fFormContainer returns each symbol occurring in any formula exactly once, nothing else, in ascending order of name; when names are distinct the list does not depend on the internal set order.", "quantifier": "every container, every iteration order of the sets involved", "why_tests_cant": "set iteration order is an environment schedule", "anchors": ["shgpy/core/data_handler.py:fFormContainer.get_free_symbols", "shgpy/core/data_handler.py:FormContainer.get_free_symbols"]}
{"id": "C32", "title": "Substitution semantics of the formula containers", "statement": "subs([(s1,e1),...,(sn,en)]) evaluates at a valuation like the original formula at the valuation updated sequentially; after any sequence of subs/apply_phase_shift/apply_arbitrary_scale calls keys and M are unchanged and the value of each formula is the composed update applied to the original.", "quantifier": "every formula container, every sequence of operations, every valuation", "why_tests_cant": "unbounded histories; symbol capture", "anchors": ["shgpy/core/data_handler.py:fFormContainer.subs", "shgpy/core/data_handler.py:FormContainer.subs", "shgpy/core/data_handler.py:apply_arbitrary_scale"]}
{"id": "C33", "title": "Saved Fourier formulas load back", "statement": "load_fform(save_fform(f)) returns a container with the same keys, formulas and M.", "quantifier": "every fFormContainer, every M", "why_tests_cant": "all containers", "anchors": ["shgpy/core/data_handler.py:load_fform", "shgpy/core/data_handler.py:save_fform"]}
{"id": "C34", "title": "merge_containers", "statement": "Merging DataContainers in which every combination has pairwise distinct angles, FormContainers, or fDataContainers/fFormContainers with M = 16: the result of merge_containers(cs, mapping) has as keys exactly the images mapping(k,i), in order of first appearance; each key holds the value of the last (i,k) mapped to it, so with an injective mapping nothing is lost. Containers of mixed types raise TypeError whenever the odd one is non-empty (always if a DataContainer is involved); merging fData/fForm containers with another M, or with a combination that consists of plain numbers only, raises ValueError.", "quantifier": "every list of containers of the four kinds, every mapping", "why_tests_cant": "all container lists and mappings", "anchors": ["shgpy/core/data_handler.py:merge_containers"]}
{"id": "C35", "title": "Loading pipeline", "statement": "load_data_and_fourier_transform(files, ..., min_subtract, scale) returns the same dat as load_data (with dark subtraction and subtract_min when asked), and fdat = dat_to_fdat(dat); with scale s the returned data are scaled by s.", "quantifier": "all file contents and option combinations", "why_tests_cant": "combination of options with arbitrary data", "anchors": ["shgpy/core/data_handler.py:load_data_and_fourier_transform", "shgpy/core/data_handler.py:load_data", "shgpy/core/data_handler.py:load_data_and_dark_subtract"]}
{"id": "C36", "title": "tensor_contract contracts exactly the requested index pairs", "statement": "tensor_contract(T, [[p1,q1],...,[pk,qk]]) with pairwise distinct in-range indices returns the tensor over the remaining indices, in their original order, equal to the sum over all values of the pairs with p_i and q_i set equal; the order of the pairs is irrelevant.", "quantifier": "tensors of every rank, every dimension, every list of disjoint pairs", "why_tests_cant": "the bookkeeping of shifting axis numbers must be right for all ranks and pair lists", "anchors": ["shgpy/core/utilities.py:tensor_contract", "shgpy/core/utilities.py:tensor_product"]}
{"id": "C37", "title": "transform is a group action on tensors of every rank", "statement": "transform(t, A)_{i1..ir} = sum A_{i1 j1}...A_{ir jr} t_{j1..jr}; transform(t, 1) = t; transform(transform(t, A), B) = transform(t, B A); it is linear in t; an orthogonal A is undone by its transpose.", "quantifier": "tensors of every rank from 1 (rank 0 raises IndexError), all matrices", "why_tests_cant": "rank is unbounded; identity over all matrices", "anchors": ["shgpy/core/utilities.py:transform"]}
{"id": "C38", "title": "rotation_matrix3 is a rotation about the given axis", "statement": "rotation_matrix3(n, t) for nonzero n is orthogonal with determinant 1, fixes n, has trace 1+2cos t, equals the identity for t=0, adds angles for equal axes, and depends only on the direction of n; the passed list is normalized in place to unit length.", "quantifier": "all nonzero axes and angles", "why_tests_cant": "identities over the reals", "anchors": ["shgpy/core/utilities.py:rotation_matrix3", "shgpy/core/utilities.py:rotation_matrix3symb"]}
{"id": "C39", "title": "rotation_matrix_from_two_vectors returns a rotation taking one direction to the other", "statement": "For all nonzero vectors v, w the returned matrix is a proper rotation (orthogonal, determinant 1) mapping v/|v| to w/|w|.", "quantifier": "all pairs of nonzero vectors", "why_tests_cant": "continuum of inputs with exceptional parallel/antiparallel cases", "anchors": ["shgpy/core/utilities.py:rotation_matrix_from_two_vectors", "shgpy/core/utilities.py:_cross_product", "shgpy/core/utilities.py:_levi_civita"]}
{"id": "C40", "title": "Levi-Civita symbol and cross product", "statement": "The Levi-Civita helper is 0 on repeated indices and the sign of the permutation otherwise; the cross product built from it is perpendicular to both arguments, antisymmetric and agrees with the determinant formula.", "quantifier": "all index triples and all vectors", "why_tests_cant": "identities over all vectors", "anchors": ["shgpy/core/utilities.py:_levi_civita", "shgpy/core/utilities.py:_cross_product", "shgpy/formgen.py:formgen"]}
{"id": "C41", "title": "union preserves order and removes duplicates", "statement": "union(l1,...,lk) contains exactly the elements of the lists, each once, ordered by first occurrence in the concatenation.", "quantifier": "all lists of lists", "why_tests_cant": "unbounded lists", "anchors": ["shgpy/core/utilities.py:union"]}
{"id": "C42", "title": "particularize imposes the index symmetry", "statement": "If the solver returns a correct solution of the posed linear system, particularize(t) is symmetric under exchange of its last two indices (under all index permutations with permute_all_indices), every value it takes is a value of t, a tensor already symmetric in the last two indices is returned unchanged, and hence the function is idempotent.", "quantifier": "all symbolic tensors with indices from 0 to 2, all sound solvers", "why_tests_cant": "all tensors and all solver outputs", "anchors": ["shgpy/core/utilities.py:particularize", "shgpy/core/utilities.py:_particularize_last_two", "shgpy/core/utilities.py:_particularize_all"]}
{"id": "C43", "title": "make_tensor_complex / make_tensor_real", "statement": "make_tensor_complex replaces every symbol x made without assumptions by real_x + i*imag_x with new real symbols, independently of iteration order: evaluating the result at real values equals evaluating the original at x = real_x + i imag_x. All symbols of the result are real, so formgen accepts it; make_tensor_real substitutes real symbols of the same name. Symbols declared real, or declared not real, are left alone.", "quantifier": "all tensors of symbols made without assumptions or declared real, all valuations, all iteration orders", "why_tests_cant": "simultaneous vs sequential substitution for all expressions", "anchors": ["shgpy/core/utilities.py:make_tensor_complex", "shgpy/core/utilities.py:make_tensor_real", "shgpy/core/utilities.py:_assert_real_params"]}
{"id": "C44", "title": "formgen computes the intensity of the documented physical model", "statement": "For every choice of tensors the formula formgen returns for XY evaluates to |component of the radiated field|^2: the source S = R.chi_eee(E,E) + (magnetic and quadrupole contributions) projected perpendicular to the outgoing wave vector, squared modulus of the (x,z) components for P output and of y for S output. The projected field is perpendicular to the outgoing wave vector, and every formula is real and non-negative.", "quantifier": "all tensors (real or complex valued), all angles of incidence, all phi", "why_tests_cant": "continuum of parameters", "anchors": ["shgpy/formgen.py:formgen", "shgpy/formgen.py:gen_S"]}
{"id": "C45", "title": "Rotating the crystal about the surface normal shifts phi", "statement": "formgen of the tensors rotated about z by alpha, at azimuth phi, equals formgen of the original tensors at azimuth phi + alpha; consequently a tensor invariant under a rotation by alpha about z gives alpha-periodic intensities.", "quantifier": "all tensors of all three kinds (eee, mee, qee), all alpha, phi, theta", "why_tests_cant": "functional identity", "anchors": ["shgpy/formgen.py:formgen", "shgpy/core/utilities.py:transform"]}
{"id": "C46", "title": "Legacy formula generators agree with formgen", "statement": "formgen_just_dipole(t, theta) and, for an angle known to be real, formgen_dipole_quadrupole(t, q, theta) return the same four intensities as formgen(t_eee=t) and formgen(t_eee=t, t_qee=q); for any other angle the latter raises ValueError.", "quantifier": "all tensors, angles of incidence and phi", "why_tests_cant": "functional identity between separately written code paths", "anchors": ["shgpy/formgen.py:formgen_just_dipole", "shgpy/formgen.py:formgen_dipole_quadrupole", "shgpy/formgen.py:formgen"]}
{"id": "C47", "title": "Intensities are quadratic in the susceptibility", "statement": "Multiplying all tensors by a complex number lambda multiplies every intensity by |lambda|^2; in particular a global sign or phase of the tensors is unobservable.", "quantifier": "all tensors, all lambda, all geometries", "why_tests_cant": "functional identity", "anchors": ["shgpy/formgen.py:formgen"]}
{"id": "C48", "title": "Harmonic content of the formulas", "statement": "As a function of phi every intensity formula is a trigonometric polynomial of degree at most 6 for dipole-type tensors and at most 8 when a quadrupole tensor is present: all its Fourier components beyond that vanish and it equals the sum of the others.", "quantifier": "all tensors and angles of incidence", "why_tests_cant": "a bound on all formulas", "anchors": ["shgpy/formgen.py:formgen", "shgpy/core/_lookup_table.py:_lookup_table"]}
{"id": "C49", "title": "Normal incidence 90-degree relations", "statement": "At normal incidence (theta=0) formgen satisfies SS(phi+pi/2)=PP(phi), PP(phi+pi/2)=SS(phi), SP(phi+pi/2)=PS(phi), PS(phi+pi/2)=SP(phi): exactly the relations by which DataContainer(normal_to_oblique=True) fills in missing combinations.", "quantifier": "all tensors of all kinds, all phi", "why_tests_cant": "functional identity", "anchors": ["shgpy/formgen.py:formgen", "shgpy/core/data_handler.py:_coerce_to_oblique_incidence"]}
{"id": "C50", "title": "Only the symmetric part of the tensor radiates", "statement": "Replacing a dipole-type (eee or mee) or quadrupole tensor by its symmetrization in the last two indices does not change any formgen intensity, so particularizing loses no observable information.", "quantifier": "all tensors, geometries", "why_tests_cant": "functional identity", "anchors": ["shgpy/formgen.py:formgen", "shgpy/core/utilities.py:particularize"]}
{"id": "C51", "title": "formgen input checks", "statement": "formgen raises ValueError exactly when all three tensors are None or some supplied tensor contains a symbol not declared real; it evaluates no partial result otherwise.", "quantifier": "all combinations of None/tensors, all symbol assumptions", "why_tests_cant": "all combinations", "anchors": ["shgpy/formgen.py:formgen", "shgpy/core/utilities.py:_assert_real_params"]}
{"id": "C52", "title": "fformgen computes the Fourier components of the intensity", "statement": "With M=16 the arrays produced by generate_uncontracted_fourier_transforms followed by generate_contracted_fourier_transforms are the Fourier coefficients (in phi) of |P + iQ|^2 for the geometry used there, for all dipole and quadrupole tensors.", "quantifier": "all tensors, angles of incidence and harmonics", "why_tests_cant": "a convolution identity over all tensors with index wrap-around", "anchors": ["shgpy/fformgen.py:generate_uncontracted_fourier_transforms", "shgpy/fformgen.py:generate_contracted_fourier_transforms", "shgpy/fformgen.py:_convolve_ftensors"]}
{"id": "C53", "title": "Both formula generators agree", "statement": "The 'easy way' (formgen + form_to_fform) and the 'hard way' (fformgen) give the same Fourier formula for the same tensors.", "quantifier": "all tensors and angles of incidence", "why_tests_cant": "functional identity between two subsystems", "anchors": ["shgpy/formgen.py:formgen", "shgpy/fformgen.py:generate_contracted_fourier_transforms"]}
{"id": "C54", "title": "fformgen honours the requested number of frequencies", "statement": "generate_uncontracted_fourier_transforms with any M >= 8 gives the same components |m| <= 8 as M=16.", "quantifier": "all M >= 8", "why_tests_cant": "all M", "anchors": ["shgpy/fformgen.py:generate_uncontracted_fourier_transforms", "shgpy/fformgen.py:_convolve_ftensors"]}
{"id": "C55", "title": "Tabulated tensors are exactly the point-group invariants", "statement": "For each point group in dipole, surface and quadrupole, the tensors obtained by choosing values for the free parameters are precisely the tensors invariant under the group's generators (in the stated axis setting).", "quantifier": "all tensors of rank 3 / 4 and all parameter values", "why_tests_cant": "infinite families; completeness cannot be sampled", "anchors": ["shgpy/tensor_definitions.py:dipole", "shgpy/tensor_definitions.py:surface", "shgpy/tensor_definitions.py:quadrupole"]}
{"id": "C56", "title": "surface mirrors dipole", "statement": "surface has the same point groups as dipole and each entry is the dipole entry with every parameter renamed by prefixing 's'.", "quantifier": "all point groups and entries", "why_tests_cant": "whole-table statement", "anchors": ["shgpy/tensor_definitions.py:dipole", "shgpy/tensor_definitions.py:surface"]}
{"id": "C57", "title": "The fit cost function measures the Fourier misfit", "statement": "The cost built from fform and fdat (equal M, keys of fform present in fdat) evaluates at parameters x to sum over combinations and components of |fform_m(x) - fdat_m|^2; it is non-negative, and zero iff all components agree.", "quantifier": "all Fourier formulas, data, M, parameter vectors", "why_tests_cant": "all parameter vectors", "anchors": ["shgpy/fformfit.py:_make_energy_expr", "shgpy/fformfit.py:gen_cost_func"]}
{"id": "C58", "title": "Chunking does not change the cost or the model", "statement": "With chunk_cost_func the summed chunk functions equal the unchunked cost at every parameter vector; the model function assembled from any number of chunk files (in any directory order) equals the formula components.", "quantifier": "all formulas, all chunk sizes >= 1, all file listing orders", "why_tests_cant": "all chunkings and directory orders", "anchors": ["shgpy/fformfit.py:_split", "shgpy/fformfit.py:_split_expr", "shgpy/fformfit.py:_make_energy_expr_list", "shgpy/fformfit.py:gen_model_func", "shgpy/fformfit.py:_load_func_dict"]}
{"id": "C59", "title": "Saved functions load back", "statement": "Loading a model function or a cost gradient from the location it was saved to yields the same function, whatever was in that location before.", "quantifier": "all prior directory contents, all formulas", "why_tests_cant": "crash/stale-file histories of a directory", "anchors": ["shgpy/fformfit.py:_load_func_dict", "shgpy/fformfit.py:gen_model_func", "shgpy/fformfit.py:_load_energy_and_denergy_func", "shgpy/fformfit.py:_make_denergy_func_auto"]}
{"id": "C60", "title": "Fit results are attached to the right parameters", "statement": "In every fitting routine the optimizer receives the guess and bounds in one fixed parameter order, the cost function interprets its vector in the same order, and the returned xdict maps each free symbol to its own optimized value; so cost(xdict values) is the reported optimum.", "quantifier": "all formulas, guess/bounds dictionaries in any insertion order, any optimizer behaviour", "why_tests_cant": "dictionary orders and optimizer outputs are arbitrary", "anchors": ["shgpy/fformfit.py:least_squares_fit", "shgpy/fformfit.py:basinhopping_fit", "shgpy/fformfit.py:dual_annealing_fit_with_bounds"]}
{"id": "C61", "title": "Fitting does not modify its arguments", "statement": "A fitting routine leaves the caller's option dictionaries unchanged, so calling it twice with the same arguments makes the same optimizer call.", "quantifier": "all option dictionaries", "why_tests_cant": "all histories of calls sharing a dictionary", "anchors": ["shgpy/fformfit.py:basinhopping_fit", "shgpy/fformfit.py:basinhopping_fit_jac"]}
{"id": "C62", "title": "The cost compares equal frequencies", "statement": "The cost function compares component m of the formula with component m of the data for every m, also when fform and fdat were built with different M, or raises.", "quantifier": "all pairs of M", "why_tests_cant": "all M pairs", "anchors": ["shgpy/fformfit.py:_make_energy_expr", "shgpy/core/data_handler.py:n2i"]}
{"id": "C63", "title": "Plot layout", "statement": "easy_plot makes exactly one cell per requested polarization combination (one row for up to 3, two by two for 4), shows the combinations in the requested order with one curve per container drawn from that container's own points, labels the outer edges, and raises ValueError for more than 4 combinations and KeyError for a missing combination.", "quantifier": "all containers, parameter lists and lists of combinations", "why_tests_cant": "ranges over every list of containers and combinations", "anchors": ["shgpy/plotter.py:easy_plot", "shgpy/plotter.py:easy_polar_plot"]}
{"id": "C64", "title": "Formula container validation", "statement": "fFormContainer(iterable, M) is accepted exactly when every key is a str and every value is a one-dimensional object array of length 2*M+1, FormContainer(iterable) exactly when every key is a str; otherwise ValueError. An accepted container has the keys of the iterable in order and its formulas have the values that were given, under every valuation of the symbols.", "quantifier": "all iterables, M, valuations", "why_tests_cant": "all iterables and all valuations of the symbols", "anchors": ["shgpy/core/data_handler.py:fFormContainer.__init__", "shgpy/core/data_handler.py:FormContainer.__init__"]}
{"id": "C65", "title": "Legacy moments make the same intensities", "statement": "make_form_from_P_and_Q applied to the result of gen_P_just_dipole or of gen_P_dipole_quadrupole returns the same four intensities as formgen for the same tensors.", "quantifier": "all tensors with real symbols, all angles of incidence in real symbols, all phi", "why_tests_cant": "Equality of symbolic expressions for all tensors and angles; a test compares a few substitutions.", "anchors": ["shgpy/formgen.py: gen_P_just_dipole", "shgpy/formgen.py: gen_P_dipole_quadrupole", "shgpy/formgen.py: make_form_from_P_and_Q"]}
{"id": "C66", "title": "formgen invents no symbols", "statement": "Every free symbol of a formula returned by formgen is phi, a symbol of the angle of incidence, or a symbol of one of the given tensors; so after fitting, the parameters are exactly tensor elements.", "quantifier": "all tensors, all angles of incidence", "why_tests_cant": "Ranges over all tensors and all symbols in them.", "anchors": ["shgpy/formgen.py:formgen", "shgpy/formgen.py:gen_S"]}
{"id": "C67", "title": "formgen formulas are covered by the Fourier table", "statement": "Every formula that formgen returns is a trigonometric polynomial in phi of degree at most 8 (6 without quadrupole) with coefficients free of phi, so once expanded every monomial in it is one that form_to_fform can transform, and form_to_fform(formgen(...)) holds the Fourier coefficients of the intensity.", "quantifier": "all tensors, all angles of incidence, all combinations", "why_tests_cant": "Ranges over all tensors with arbitrary symbolic entries.", "anchors": ["shgpy/formgen.py:formgen", "shgpy/core/_fourier_transform.py: _fourier_transform"]}
{"id": "C68", "title": "Parameters are the tensor elements they name", "statement": "In every tabulated dipole, surface and quadrupole tensor, each free parameter is named after an index tuple (prefixed by s for surface) and the element at that tuple is exactly that parameter; so distinct parameter values give distinct tensors and a fitted value of zxx is the tensor element zxx.", "quantifier": "all tables, all point groups, all elements and all parameter values", "why_tests_cant": "Ranges over all parameter values and every symbol occurring in any entry.", "anchors": ["shgpy/tensor_definitions.py:dipole", "shgpy/tensor_definitions.py:surface", "shgpy/tensor_definitions.py:quadrupole", "shgpy/shg_symbols.py"]}
{"id": "C69", "title": "Dipole and quadrupole tables use one axis setting", "statement": "For every point group in both dipole and quadrupole, the two entries describe the same crystal in the same orientation: a single set of orthogonal operations has both as its invariant tensors, so they can be passed together to formgen.", "quantifier": "all point groups in both tables, all sets of orthogonal maps, all tensors", "why_tests_cant": "Existence of a common symmetry group ranges over all sets of orthogonal matrices.", "anchors": ["shgpy/tensor_definitions.py:dipole", "shgpy/tensor_definitions.py:quadrupole"]}
{"id": "C70", "title": "The gradient of the cost", "statement": "The cost function with gradient that the jac fits hand to the optimizer returns at every parameter vector the cost and the list of its partial derivatives in parameter order. Making it can fail with IndexError only if the cost is the same at all parameter vectors, and does if there are no parameters; asking for chunks raises NotImplementedError.", "quantifier": "all Fourier formulas in real symbols, data, M, parameter vectors", "why_tests_cant": "all formulas and parameter vectors; derivatives are limits", "anchors": ["shgpy/fformfit.py:_make_denergy_expr", "shgpy/fformfit.py:_make_energy_and_denergy_func_wrapper", "shgpy/fformfit.py:basinhopping_fit_jac"]}
{"id": "C71", "title": "Loading an incomplete model raises", "statement": "load_model_func either returns a function with the values of the formula or raises; a folder that does not exist or lacks files is an error.", "quantifier": "all folder contents, all formulas", "why_tests_cant": "all directory histories", "anchors": ["shgpy/fformfit.py:load_model_func", "shgpy/fformfit.py:_load_func_dict"]}
{"id": "C72", "title": "filter transforms only the values", "statement": "DataContainer.filter(f) replaces the values of each combination by what f returns for them and keeps combinations, angles, recorded scale, phase shift and offset; when f fails on a combination, the earlier combinations are filtered and the others unchanged.", "quantifier": "all containers with any history and all user functions", "why_tests_cant": "the user function is arbitrary and may fail at any combination", "anchors": ["shgpy/core/data_handler.py:DataContainer.filter"]}
{"id": "C73", "title": "Polar plot layout", "statement": "easy_polar_plot makes one row with one cell per requested combination, in order, with one curve per container, and puts the radial tick at the largest value of all containers.", "quantifier": "all nonempty lists of combinations and all containers", "why_tests_cant": "ranges over every list of containers and combinations", "anchors": ["shgpy/plotter.py:easy_polar_plot"]}
{"id": "C74", "title": "Data frame views", "statement": "as_pandas shows exactly the content of a container: each combination's rows are its angles (in the requested units), orders or formula with its values, in order, and nothing else.", "quantifier": "all containers of the four classes reachable by any history, both index modes, both units", "why_tests_cant": "ranges over all containers, in particular those whose combinations were measured at different angles", "anchors": ["shgpy/core/data_handler.py:DataContainer.as_pandas", "shgpy/core/data_handler.py:fDataContainer.as_pandas", "shgpy/core/data_handler.py:fFormContainer.as_pandas", "shgpy/core/data_handler.py:FormContainer.as_pandas"]}
{"id": "C75", "title": "Only the requested files are written", "statement": "Generating a cost function (with or without gradient), generating a model function and fitting write exactly the files or folder named by the caller, with the function that is returned, leave every other file and folder alone, and write nothing when no name is given or when functions are loaded.", "quantifier": "all formulas, data, argument lists, names, states of the disk and of the process, all optimizers, all outcomes of a fit including exceptions", "why_tests_cant": "a test sees some names on one disk; the claim is about every other file on any disk", "anchors": ["shgpy/fformfit.py:gen_cost_func", "shgpy/fformfit.py:gen_model_func", "shgpy/fformfit.py:load_func", "shgpy/fformfit.py:load_model_func", "shgpy/fformfit.py:least_squares_fit", "shgpy/fformfit.py:basinhopping_fit_jac"]}
{"id": "C76", "title": "form_to_fdat gives the Fourier components", "statement": "form_to_fdat(form, subs_dict, M) returns, for every combination and every order from -M to M, the Fourier coefficient of the formula with the numbers substituted.", "quantifier": "all formula containers over the supported functions, all substitutions, all M", "why_tests_cant": "ranges over all formulas, substitutions and M", "anchors": ["shgpy/core/data_handler.py:form_to_fdat", "shgpy/core/data_handler.py:form_to_fform", "shgpy/core/data_handler.py:fform_to_fdat"]}
{"id": "C77", "title": "Accessors show one table", "statement": "get_keys, get_values, get_items and get_pc of a container show one and the same table: keys without repetition, values in the order of the keys, items pairing them and get_pc(k) the value at k or KeyError.", "quantifier": "all containers of the four classes with any history, all units strings", "why_tests_cant": "must hold after every history of in-place operations", "anchors": ["shgpy/core/data_handler.py:DataContainer.get_values", "shgpy/core/data_handler.py:DataContainer.get_items", "shgpy/core/data_handler.py:DataContainer.get_pc", "shgpy/core/data_handler.py:fDataContainer.get_items", "shgpy/core/data_handler.py:fFormContainer.get_items", "shgpy/core/data_handler.py:FormContainer.get_items"]}
{"id": "C78", "title": "Interrupted saving never yields a wrong function", "statement": "If gen_cost_func, the generation of a cost function with gradient, or gen_model_func is interrupted at any point, a new process that loads from the same names gets what it got before the call, or what the completed call would have saved, or an error.", "quantifier": "all crash points between two operations on the disk, all formulas, data, names and old contents of the disk", "why_tests_cant": "ranges over every crash point and every earlier state of the disk", "anchors": ["shgpy/fformfit.py:gen_cost_func", "shgpy/fformfit.py:gen_model_func", "shgpy/fformfit.py:_fixed_autowrap", "shgpy/fformfit.py:_fixed_autowrap_model", "shgpy/fformfit.py:_make_denergy_func_auto"]}
{"id": "C79", "title": "A saving call that raises leaves saved functions alone", "statement": "If gen_cost_func, the generation of a cost function with gradient, or gen_model_func raises, the files and folders are as before the call.", "quantifier": "all formulas, data, options that make the call raise, all disks", "why_tests_cant": "ranges over all causes of failure and all earlier states of the disk", "anchors": ["shgpy/fformfit.py:gen_cost_func", "shgpy/fformfit.py:gen_model_func", "shgpy/fformfit.py:_make_energy_func_chunked", "shgpy/fformfit.py:_fixed_autowrap_model"]}
{"id": "C80", "title": "A loaded function does not change while the process runs", "statement": "Once load_func (or load_model_func) has loaded a function from a path, the path means that function for the rest of the process, whatever calls are made and whatever happens to the file or folder. A function obtained with multiprocessing=True raises nothing when it is made, loads its library at each call, has the value that loading at that moment gives, fails exactly when loading would fail, and agrees with the eagerly loaded function at every later time.", "quantifier": "all sequences of calls and of changes of the disk by anybody, all paths, all arguments", "why_tests_cant": "all histories of a process and of the disk", "anchors": ["shgpy/fformfit.py:load_func", "shgpy/fformfit.py:_load_func", "shgpy/fformfit.py:load_model_func", "shgpy/fformfit.py:_load_func_dict"]}
{"id": "C81", "title": "Rounded Fourier formulas are close to the exact ones", "statement": "generate_contracted_fourier_transforms with ndigits=n (n >= 0) fails exactly when it fails with ndigits=None and writes a file with the same combinations and the same number of components. No component gets a new symbol. If the expanded formula is a sum of products of a number and of factors whose numbers have at most n digits, its value changes, for all values of the symbols, by at most half a unit of digit n for each term, times the size of the other factors of the term; formulas whose numbers have at most n digits keep their value.", "quantifier": "all tensors, all prefixes and stored uncontracted transforms, all M, all n >= 0, all values of the symbols", "why_tests_cant": "a bound over all formulas and all real and complex values of the symbols", "anchors": ["shgpy/fformgen.py:generate_contracted_fourier_transforms", "shgpy/fformgen.py:_round_expr", "shgpy/fformgen.py:_round_complex_tensor"]}
{"id": "C82", "title": "Patterns have the symmetry of the crystal", "statement": "Take the dipole (or surface) tensor and the quadrupole tensor of any tabulated point groups, made real or complex with make_tensor_real/make_tensor_complex. formgen accepts them; if both groups contain the rotation by an angle about the surface normal, the formulas are unchanged when phi increases by that angle; if both contain a reflection at a plane through the normal, they are unchanged when phi is reflected; a dipole tensor of a group with inversion gives zero. With an n-fold axis along the normal, the Fourier components (by form_to_fform of supported formulas, or by fformgen) whose frequency is not a multiple of n are zero; with the mirror perpendicular to y the components are real and equal for m and -m.", "quantifier": "all entries of the three tables, all operations of their groups, all prefixes and suffixes, all angles of incidence, all values of the parameters, all combinations, all frequencies", "why_tests_cant": "ranges over all parameters, angles and all symmetry operations of all entries; composes tables, tensor preparation, formula generation and Fourier transformation", "anchors": ["shgpy/tensor_definitions.py", "shgpy/core/utilities.py:make_tensor_real", "shgpy/core/utilities.py:make_tensor_complex", "shgpy/formgen.py:formgen", "shgpy/core/data_handler.py:form_to_fform", "shgpy/fformgen.py:generate_contracted_fourier_transforms"]}
{"id": "C83", "title": "Simulated data are fitted exactly by the parameters of the simulation", "statement": "If Fourier data are simulated with fform_to_fdat(fform, subs), or as a function of the angle with fform_to_dat(fform, subs, N >= 33) and transformed with dat_to_fdat(dat, M=16), then gen_cost_func(fform, fdat) succeeds, the cost is zero at the parameters of the simulation, nowhere negative, and zero at other parameters exactly when fform_to_fdat gives the same data for them.", "quantifier": "all Fourier formulas with M = 16, all parameters whose data are machine numbers, all N >= 33, all interpolations through the samples, all orders of arguments, chunked or not, saved or not", "why_tests_cant": "composes simulation, sampling, transformation and code generation; ranges over all formulas, all parameters and all other points of the parameter space", "anchors": ["shgpy/core/data_handler.py:fform_to_fdat", "shgpy/core/data_handler.py:fform_to_dat", "shgpy/core/data_handler.py:dat_to_fdat", "shgpy/fformfit.py:gen_cost_func"]}
{"id": "C84", "title": "A fit cannot determine the sign or the phase of the tensors", "statement": "For every set of data, the cost function made from the Fourier formulas of a crystal has equal values at any two parameter points at which all tensors differ by a common factor of modulus one and the angle of incidence is the same. With tabulated tensors made real or complex, changing the sign of all tensor parameters leaves the cost unchanged; with make_tensor_complex, turning the pairs of real and imaginary parts of all parameters by any common angle does.", "quantifier": "all tensors, all entries of the tables, all data, all parameter values, all factors of modulus one, both ways to Fourier formulas, all angles of incidence", "why_tests_cant": "a continuous invariance over all data and all parameters", "anchors": ["shgpy/fformfit.py:gen_cost_func", "shgpy/formgen.py:formgen", "shgpy/core/utilities.py:make_tensor_complex", "shgpy/tensor_definitions.py"]}
{"id": "C85", "title": "Angles stay within one turn in floating point arithmetic", "statement": "With floating point numbers (any number of digits, any rule for ties), the angles of a constructed or phase-shifted DataContainer are sorted, in [0, 2*np.pi), and nearest floats to the exact remainders of the given angles; constructing a container again from its own data does not change it.", "quantifier": "all arrays of floats, all precisions, all nearest roundings, all positive floats in the place of 2*np.pi", "why_tests_cant": "the exceptions are isolated tiny negative angles; must hold for all floats and all rounding rules", "anchors": ["shgpy/core/data_handler.py:DataContainer.__init__", "shgpy/core/data_handler.py:DataContainer._modulate_data_dict", "shgpy/core/data_handler.py:DataContainer.phase_shift_data"]}
{"id": "C86", "title": "Cost and model functions see the numbers in the array they are called with", "statement": "A generated function called with an array returns the value of its expression at the numbers of that array. For cost functions this holds when the array is a contiguous array of float64 with at least as many elements as there are arguments. Model functions convert the array first, and accept any array with enough elements.", "quantifier": "all arrays (base address, stride, length, element type), all contents of the memory, all generated functions", "why_tests_cant": "the raw address of the array is handed to compiled code, so the result depends on the memory layout; tests with fresh float arrays cannot see it", "anchors": ["shgpy/fformfit.py:_fixed_autowrap", "shgpy/fformfit.py:_fixed_autowrap_model", "shgpy/fformfit.py:_load_func_dict"]}
{"id": "C87", "title": "filter with functions that remember and write into their argument", "statement": "A call of filter that succeeds replaces the values of each combination by what the function returned for them, also if the function keeps a memory or works in place; recorded scale, phase shift and offset do not change. A call that fails has filtered the combinations before the offending one and leaves the later ones alone; the offending one should be unchanged, but has what the function wrote into its argument.", "quantifier": "all containers, all functions that depend on the history of their calls and write anything of the same length into their argument", "why_tests_cant": "ranges over all functions with memory and side effects and over all points of failure", "anchors": ["shgpy/core/data_handler.py:DataContainer.filter"]}
{"id": "C88", "title": "Containers and substitutions take iterators like collections", "statement": "A container constructed from an iterator (zip, generator) should have the content of the dictionary with the same items, and subs should make the same substitutions everywhere when its pairs come from an iterator. For dictionaries, lists and tuples this holds; from an iterator the constructors build an empty container without checking the values, FormContainer.subs changes the first formula only, and fFormContainer.subs the lowest component of the first combination only.", "quantifier": "all four container classes, all items, all iterators, all substitutions", "why_tests_cant": "must hold for all contents; the failure is silent and depends on how often the code reads its argument", "anchors": ["shgpy/core/data_handler.py:DataContainer.__init__", "shgpy/core/data_handler.py:fDataContainer.__init__", "shgpy/core/data_handler.py:fFormContainer.__init__", "shgpy/core/data_handler.py:FormContainer.__init__", "shgpy/core/data_handler.py:fFormContainer.subs", "shgpy/core/data_handler.py:FormContainer.subs"]}
{"id": "C89", "title": "Fourier data of measurements are real-signal Fourier coefficients", "statement": "dat_to_fdat of any measurement gives, for each combination, the discrete Fourier coefficients of the interpolated pattern on as many equally spaced angles as there are points: components at m and -m are conjugates, the component at 0 is the mean, no component exceeds the largest value, and with more than 2M points the sum of the squared components is at most the mean square of the pattern.", "quantifier": "all data containers, all interpolations, all M", "why_tests_cant": "ranges over all measurements, numbers of points and interpolants", "anchors": ["shgpy/core/data_handler.py:dat_to_fdat"]}
{"id": "C90", "title": "Fitting in Fourier space is least-squares fitting of the measured pattern", "statement": "If every combination was measured at more than 2M angles, the cost function generated from a formula and the Fourier transform of a measurement equals, at all parameters, the sum over the combinations of the mean squared deviation of the pattern of the formula from the interpolated measurement, less a constant that is not negative. So the cost ranks parameters as the squared deviations do, and has the same minimizers.", "quantifier": "all data containers, formulas, parameters, argument orders, with and without chunking", "why_tests_cant": "an identity over all parameters and all measurements (Parseval); tests see single values", "anchors": ["shgpy/core/data_handler.py:dat_to_fdat", "shgpy/fformfit.py:gen_cost_func"]}
{"id": "C91", "title": "Calls in several processes that save different files do not disturb each other", "statement": "When any number of processes generate and save cost functions or gradients at the same time and no two of them use the same file name, then for every interleaving of their steps on the file system no process fails, each finished file has exactly the bytes of the library that its process made, a file being saved is as before, missing or the beginning of the new library, and all other files are as before. Different gradient prefixes that do not end in a digit have no file name in common.", "quantifier": "all numbers of processes, lists of files, libraries, initial file systems and schedules", "why_tests_cant": "ranges over all interleavings of all processes; a test run sees one schedule", "anchors": ["shgpy/fformfit.py:_fixed_autowrap", "shgpy/fformfit.py:_make_energy_func_chunked", "shgpy/fformfit.py:_make_denergy_func_auto", "shgpy/fformfit.py:gen_cost_func"]}
{"id": "C92", "title": "Calls in several processes that save the same file", "statement": "When two processes save a function to the same file at the same time, both should succeed and the file should be the library of one of them. This holds when one call begins after the other has ended. Otherwise one of them can raise FileNotFoundError, because the file it wants to remove is gone, or both can succeed and leave a file that is a mixture of the two libraries.", "quantifier": "all file names, libraries and initial file systems; all schedules", "why_tests_cant": "the failures depend on the interleaving of the processes", "anchors": ["shgpy/fformfit.py:_fixed_autowrap", "shgpy/fformfit.py:_make_energy_func_chunked"]}
{"id": "C93", "title": "Data with values that are infinite or not numbers", "statement": "The largest and smallest value of a container, and the operations that use them, should take every value that is a number into account when some values are nan or infinite. get_maxval and get_minval give the extrema over the combinations whose first value is not nan, and these are the extrema over all values only when no combination starts with nan. If the largest value is a positive number, normalize_data scales it to the given value and nan stays nan. Otherwise values are lost without an error: when every combination starts with nan, normalize_data makes all numbers zero and subtract_min makes them -inf; when the largest value is zero, normalize_data makes zeros nan; when a value is inf, it makes all numbers zero.", "quantifier": "all containers made from finite angles and arbitrary values by the constructor, scale_data, normalize_data and subtract_min", "why_tests_cant": "depends on which values are nan and where they are, for all data", "anchors": ["shgpy/core/data_handler.py:DataContainer.get_maxval", "shgpy/core/data_handler.py:DataContainer.get_minval", "shgpy/core/data_handler.py:DataContainer.normalize_data", "shgpy/core/data_handler.py:DataContainer.subtract_min", "shgpy/core/data_handler.py:DataContainer.scale_data"]}
{"id": "C94", "title": "Fitting several measurements together", "statement": "When formulas are merged and the measurements that belong to them are merged with the same key mapping, and the mapping gives no two combinations the same new key (as key + str(index) does for keys of equal length), then gen_cost_func of the merged formula and the merged data gives, for all values of the parameters, the sum of the costs of the single formulas and measurements; with or without chunking and saving.", "quantifier": "all non-empty lists of pairs of Fourier formula and Fourier data with M = 16, all mappings without clashes, all argument orders, all parameter values", "why_tests_cant": "ranges over all formulas, data, mappings and parameters", "anchors": ["shgpy/core/data_handler.py:merge_containers", "shgpy/fformfit.py:gen_cost_func"]}
{"id": "C95", "title": "Fitting the orientation of the sample", "statement": "Phase shifting the formula by an expression and fitting is the same as phase shifting the data back: the cost of the formula shifted by an expression (for example a new fit parameter) is, whenever the expression has the value alpha, the misfit between the formula that was not shifted and the data after phase_shift_fdata(-alpha, 'radians').", "quantifier": "all reachable Fourier formulas and Fourier data with the same M, all shift expressions, argument orders, chunking, saving, and all parameter values at which the expression is real", "why_tests_cant": "ranges over all formulas, expressions and parameters", "anchors": ["shgpy/core/data_handler.py:fFormContainer.apply_phase_shift", "shgpy/core/data_handler.py:fDataContainer.phase_shift_fdata", "shgpy/fformfit.py:gen_cost_func"]}
{"id": "C96", "title": "A function in use is not disturbed when its file is saved again", "statement": "A process that has loaded a complete saved function goes on running the same code, whatever files other processes save or load after that, also when its own file is saved again at the same time.", "quantifier": "all file systems, numbers of processes, lists of files to save, libraries, and all interleavings of the single steps of saving with loading", "why_tests_cant": "ranges over all schedules of several processes", "anchors": ["shgpy/fformfit.py:_load_func", "shgpy/fformfit.py:load_func", "shgpy/fformfit.py:_make_energy_func_chunked", "shgpy/fformfit.py:gen_cost_func"]}
{"id": "C97", "title": "The Fourier transform of data is linear", "statement": "dat_to_fdat is linear: scale_data followed by dat_to_fdat is dat_to_fdat followed by scale_fdata; subtract_min changes only the component of frequency 0 (when every combination has more than M points; otherwise the components at multiples of the number of points), by the minimum; subtracting or adding data with the same angles (dark subtraction) subtracts or adds the Fourier components.", "quantifier": "all reachable data with two or more points per combination, all scales >= 0, all M, all interpolations that are weighted sums of the values", "why_tests_cant": "ranges over all data, scales and interpolations", "anchors": ["shgpy/core/data_handler.py:dat_to_fdat", "shgpy/core/data_handler.py:DataContainer.scale_data", "shgpy/core/data_handler.py:DataContainer.subtract_min", "shgpy/core/data_handler.py:dat_subtract", "shgpy/core/data_handler.py:dat_add"]}
{"id": "C98", "title": "Fourier data in floating point arithmetic are accurate", "statement": "dat_to_fdat computes with float64 and stores complex64.  Every component that it stores differs from the exact discrete Fourier transform of the interpolated values by a bound relative to the mean absolute value: below 2^-23 for up to 2^20 points, when NumPy's exponential and the step of the grid are accurate.  The root of the cost of every fit to these data differs from the exact one by at most that bound times the mean absolute value and the root of the number of components, for all parameter values.", "quantifier": "all reachable data with two or more points per combination, all M, all ways of rounding to nearest, all interpolations, all fit parameters", "why_tests_cant": "rounding errors depend on every value; a test only sees the data it uses", "anchors": ["shgpy/core/data_handler.py:dat_to_fdat", "shgpy/fformfit.py:gen_cost_func"]}
{"id": "C99", "title": "Turned tensors describe the turned crystal", "statement": "Transforming an entry of the tensor tables by an orthogonal matrix (utilities.transform) gives a tensor whose values are exactly the tensors invariant under the point group of the turned crystal.  Formulas that formgen makes from turned entries have the symmetry of the turned crystal: if the turned group contains a rotation by alpha about the surface normal, the intensities are unchanged by phi -> phi + alpha; if it contains a mirror plane through the normal, by the reflection of phi.  Example: the (111) face of a cubic crystal has a threefold pattern.", "quantifier": "all entries of the tables, all orthogonal matrices (with numbers or with symbols), all parameter values and angles", "why_tests_cant": "ranges over all orientations and all values of the tensor elements", "anchors": ["shgpy/core/utilities.py:transform", "shgpy/tensor_definitions.py", "shgpy/formgen.py:formgen"]}
{"id": "C100", "title": "Operations on values in floating point arithmetic", "statement": "With floating point numbers of any precision, nearest rounding and any rule for ties: after subtract_min the smallest value is exactly 0 and is found in the same combination as before, no value is negative, a value is 0 exactly if it was minimal, the order of the values is kept and each value carries the relative error of one rounding; after normalize_data(d) the largest value is d; after any list of scale_data calls the recorded scale and every value differ from the exact product by at most the relative error of as many roundings.", "quantifier": "all precisions, tie rules, containers with points, positive targets and lists of nonnegative factors", "why_tests_cant": "ranges over all float values and over all histories of factors", "anchors": ["shgpy/core/data_handler.py:DataContainer.scale_data", "shgpy/core/data_handler.py:DataContainer.subtract_min", "shgpy/core/data_handler.py:DataContainer.normalize_data"]}
{"id": "C101", "title": "A cost made from a loaded model function is the generated cost", "statement": "Generating a model function, loading it from its folder and summing |model(x, pc, m) exp(-i m psi) - value|^2 over the rows of fdat.as_pandas() (the way of the example fit_model_func_example) gives, at all parameter values, the value of the cost function that gen_cost_func makes from the Fourier formula phase shifted by -psi; the array may have further elements, such as psi, behind the parameters of the formula.", "quantifier": "all Fourier formulas, data, parameter values, angles psi, numbers of terms per file, orders of the directory listing and arguments with further elements", "why_tests_cant": "ranges over all formulas, parameter values and chunkings", "anchors": ["shgpy/fformfit.py:gen_model_func", "shgpy/fformfit.py:load_model_func", "shgpy/fformfit.py:gen_cost_func", "shgpy/core/data_handler.py:fDataContainer.as_pandas", "examples/fit_model_func_example.py"]}
{"id": "C102", "title": "Fitting some of the combinations", "statement": "The container made of the items of a Fourier formula for some polarization combinations has exactly these combinations with unchanged components, in the order of the formula; with another number of frequencies there is a ValueError. Its cost function does not depend on the data of the other combinations and is the sum of the misfits of the chosen ones, and the cost of the whole formula is that of the chosen combinations plus that of the others.", "quantifier": "all Fourier formulas, sets of combinations, data and parameter values", "why_tests_cant": "ranges over all formulas, subsets of combinations and parameter values", "anchors": ["examples/fit_partial_fform_example.py", "shgpy/core/data_handler.py:fFormContainer", "shgpy/fformfit.py:gen_cost_func"]}
{"id": "C103", "title": "The curve drawn from a fit is the best curve", "statement": "Transform data with dat_to_fdat, fit them with any of the seven fitting functions, and draw the result with fform_to_dat. If the optimizer finds the minimum of the function it is given (up to a tolerance), the reported parameters are within the bounds and no other parameters within the bounds give a pattern that is nearer, in the sense of least squares, to the interpolated values at equally spaced angles (up to that tolerance); the drawn curve is the real part of that pattern.", "quantifier": "all Fourier formulas, data with more than 2M points per combination, guesses, bounds, options and optimizers that find minima", "why_tests_cant": "ranges over all formulas, data and parameter values; optimality is a statement about all alternatives", "anchors": ["shgpy/fformfit.py:least_squares_fit_with_bounds", "shgpy/fformfit.py:dual_annealing_fit_with_bounds", "shgpy/fformfit.py:basinhopping_fit", "shgpy/core/data_handler.py:dat_to_fdat", "shgpy/core/data_handler.py:fform_to_dat"]}
{"id": "C104", "title": "Lowering the symmetry never makes the fit worse", "statement": "Replace the dipole or quadrupole tensor taken from the tables by the tensor of a point group with fewer operations, by a complex tensor instead of a real one, or add a tensor that was not given (possibly transforming both to another orientation by the same matrix). Then every intensity pattern that the original formulas can make is made by the new ones with suitable parameters, all other symbols keeping their values; so the cost function takes every value the original one takes, and its minimum is not larger.", "quantifier": "all pairs of tabulated tensors whose groups are contained in each other, all preparations, orientations, angles of incidence, data and parameter values", "why_tests_cant": "ranges over all tensors, data and parameter values; it is a statement about the minimum of the cost", "anchors": ["shgpy/tensor_definitions.py:dipole", "shgpy/tensor_definitions.py:quadrupole", "shgpy/tensor_definitions.py:surface", "shgpy/core/utilities.py:make_tensor_real", "shgpy/core/utilities.py:make_tensor_complex", "shgpy/formgen.py:formgen", "shgpy/fformfit.py:gen_cost_func"]}
{"id": "C105", "title": "particularize loses no pattern", "statement": "Make the tensors of a crystal symmetric in their last two indices by particularize before they are made real or complex (and possibly transformed to another orientation): the parameters that remain are parameters of the original tensor, the formulas make exactly the same intensity patterns as those of the original tensors, at all azimuths and in all four polarization combinations, and for all data the cost function takes exactly the same set of values. Reducing the number of fit parameters in this way costs no generality.", "quantifier": "all dipole, surface and quadrupole entries of the tables, all preparations, orientations, angles of incidence, data and parameter values", "why_tests_cant": "equality of the sets of all reachable patterns and of all reachable costs", "anchors": ["shgpy/core/utilities.py:particularize", "shgpy/tensor_definitions.py:dipole", "shgpy/tensor_definitions.py:quadrupole", "shgpy/formgen.py:formgen", "shgpy/fformfit.py:gen_cost_func"]}
{"id": "C106", "title": "The face perpendicular to an n-fold axis shows an n-fold pattern", "statement": "Turn the tensors of a crystal by the matrix rotation_matrix_from_two_vectors(v, [0, 0, 1]), so that the face perpendicular to the direction v becomes the surface. If the crystal has an n-fold rotation axis along v, all four formulas of formgen are unchanged when phi increases by 360/n degrees, and the Fourier components whose frequency is not a multiple of n vanish. If the crystal has a mirror plane that contains v, the pattern has a mirror line. This holds for every direction v, also for the opposite of the surface normal, where the matrix is not a proper rotation.", "quantifier": "all directions v, all n, all dipole, surface and quadrupole entries of the tables and all their operations along v, all angles of incidence and parameter values", "why_tests_cant": "a continuum of directions, azimuths and parameters", "anchors": ["shgpy/core/utilities.py:rotation_matrix_from_two_vectors", "shgpy/core/utilities.py:transform", "shgpy/tensor_definitions.py:dipole", "shgpy/formgen.py:formgen", "examples/gen_form_example.py"]}
{"id": "C107", "title": "Small errors in tensors and matrices change the patterns little", "statement": "The values of the formulas of formgen depend on the tensor elements in a controlled way. With the size of the tensors (the root of the sum of the squares of all elements, summed over the tensors given): every intensity lies between zero and the square of the size; for two sets of tensors or parameter values the intensities differ by at most the size of the difference times the sum of the sizes; and if the tensors are transformed by a rounded matrix, whose entries differ from those of an orthogonal matrix by at most eps <= 1/24, the intensities change by at most 40 eps times the square of the size. In particular, with the rounding to ndigits digits of rotation_matrix_from_two_vectors, a face perpendicular to an n-fold axis shows an n-fold pattern up to 80 eps times the square of the size, and the forbidden Fourier components are at most half as large.", "quantifier": "all tensors, parameter values, matrices, rounding errors up to 1/24, azimuths, angles of incidence, polarizations, directions and point groups", "why_tests_cant": "an inequality over a continuum of tensors, matrices and angles", "anchors": ["shgpy/formgen.py:formgen", "shgpy/core/utilities.py:transform", "shgpy/core/utilities.py:rotation_matrix_from_two_vectors"]}
{"id": "C108", "title": "A good fit of noisy values is near the true pattern", "statement": "Let measured values be transformed with dat_to_fdat and fitted. If the cost of the parameters r is not larger than the cost of parameters r0 (the true ones, say), then the pattern for r is, in the root mean square over the angles and the combinations, at most twice as far from the pattern for r0 as the measured values are; and at every single angle at most 2 sqrt(2M+1) times as far. So the fitting routines, when the optimizer finds the minimum (up to eps), recover the true pattern to within twice the noise (up to a term that vanishes with eps), whatever the noise is.", "quantifier": "all measured values (more than 2M points per combination), interpolations, formulas, parameter values, noise, guesses, bounds that allow the true parameters, and optimizers that find the minimum up to eps", "why_tests_cant": "a bound over all noise vectors and all parameters", "anchors": ["shgpy/fformfit.py:gen_cost_func", "shgpy/fformfit.py:least_squares_fit", "shgpy/fformfit.py:dual_annealing_fit_with_bounds", "shgpy/fformfit.py:basinhopping_fit_with_bounds", "shgpy/core/data_handler.py:dat_to_fdat"]}
{"id": "C109", "title": "Scaling the data scales the fit", "statement": "With tensors from the tables (made real or complex), the cost function for data to which scale_fdata(q) was applied, at parameters where all tensor parameters are multiplied by the square root of q, is q^2 times the cost function for the original data at the original parameters. So for q > 0 the best fits of the scaled data are exactly the best fits of the original data with all tensor parameters multiplied by sqrt(q): the ratios of the fitted tensor elements, and a fitted angle of incidence, do not depend on the units of the intensity. More generally, if all tensors are multiplied by a complex number lam and the data by |lam|^2, the cost is multiplied by |lam|^4.", "quantifier": "all point groups and tensors of the tables (also after particularize), data, scales q >= 0, angles of incidence (numbers or symbols), parameter values, argument orders, chunked or not", "why_tests_cant": "an identity of cost functions over all data, scales and parameters", "anchors": ["shgpy/fformfit.py:gen_cost_func", "shgpy/core/data_handler.py:fDataContainer", "shgpy/core/data_handler.py:scale_fdata", "shgpy/formgen.py:formgen", "shgpy/fformgen.py:generate_uncontracted_fourier_transforms"]}
{"id": "C110", "title": "The file written by generate_contracted_fourier_transforms holds its formulas", "statement": "Reading the file written by generate_contracted_fourier_transforms with _load_fform_dict gives back the very expressions that were computed (rounded, if ndigits is given), combination by combination, with the assumptions of their symbols; load_fform builds its container from exactly these expressions. A saved dictionary of expressions of any lengths comes back unchanged, other files are not touched, and a missing file raises FileNotFoundError.", "quantifier": "all dictionaries of expressions, files, tensors, uncontracted files, M and numbers of digits for which the generation succeeds", "why_tests_cant": "all expressions and files; the unit test tries x**2", "anchors": ["shgpy/fformgen.py:_save_fform_dict", "shgpy/fformgen.py:_load_fform_dict", "shgpy/fformgen.py:generate_contracted_fourier_transforms", "shgpy/core/data_handler.py:load_fform"]}
{"id": "C111", "title": "Fits with bounds have a best solution, where the gradient is zero", "statement": "If lower bounds are not above upper bounds, the cost function generated from a formula and data has a least value between the bounds, and least_squares_fit_with_bounds and dual_annealing_fit_with_bounds succeed and report parameters with that value if the optimizer finds such a point whenever there is one. At a best point inside the bounds the gradient handed to the optimizer is zero. Without bounds there may be no best solution: for some formulas and data every set of parameters can be improved.", "quantifier": "all formulas, data, argument orders and bounds for which the cost function can be generated", "why_tests_cant": "about all points of a continuum of parameters, for all formulas", "anchors": ["shgpy/fformfit.py:gen_cost_func", "shgpy/fformfit.py:least_squares_fit_with_bounds", "shgpy/fformfit.py:dual_annealing_fit_with_bounds", "shgpy/fformfit.py:basinhopping_fit_jac_with_bounds"]}
{"id": "C112", "title": "The generated C files compute the cost, its gradient and the model", "statement": "The text of the C file that is compiled for the cost (in one piece or in chunks), read as a C program, defines the function autofunc exactly once, and autofunc computes the sum of |formula - data|² for the parameters in the order of the arguments; the files for the gradient compute the partial derivatives, and the values of the files of a component of the model function add up to its real or imaginary part. A file computes one function only. The chunked file for a formula without combinations is not a C program.", "quantifier": "all formulas, data, argument orders, chunk settings and file sizes, and all ways of writing expressions in C that give them their values", "why_tests_cant": "about the text of generated programs for all formulas", "anchors": ["shgpy/fformfit.py:gen_cost_func", "shgpy/fformfit.py:_fixed_autowrap", "shgpy/fformfit.py:_make_energy_func_chunked", "shgpy/fformfit.py:_fixed_autowrap_model", "shgpy/fformfit.py:_make_energy_and_denergy_func_wrapper"]}
{"id": "C113", "title": "The fitting examples find the best turned curve", "statement": "The script examples/fit_fform_example.py, for any data files and any stored Fourier formula that load, when every combination of the formula is measured with more than 32 points: it fails only if the optimizer fails, never if the optimizer finds what there is to find, and otherwise it returns the measured data, parameters between the bounds, and a curve of 1000 points that is the pattern of the stored formula for these parameters turned by psi. No parameters between the bounds give a turned pattern whose root mean square deviation from the interpolated values, beyond the part that no parameters can remove, is smaller by more than the tolerance of the optimizer and a multiple of the rounding of the Fourier components. The same for examples/fit_partial_fform_example.py and any selection of combinations.", "quantifier": "all files, units, stored formulas, selections, tolerances and rounding errors", "why_tests_cant": "a statement about a whole program for all inputs and all competing parameters", "anchors": ["examples/fit_fform_example.py:fit_dat", "examples/fit_partial_fform_example.py:fit_dat", "shgpy/core/data_handler.py:load_data_and_fourier_transform", "shgpy/core/data_handler.py:load_fform", "shgpy/fformfit.py:least_squares_fit_with_bounds", "shgpy/core/data_handler.py:fform_to_dat"]}
{"id": "C114", "title": "A cost function saved by one script and minimized by another finds the best turned curve", "statement": "Run examples/gen_cost_func_example.py and then, in another process that may iterate over sets in another order, examples/fit_cost_func_example.py, for any data files and any stored Fourier formula that load, when every combination of the formula is measured with more than 32 points, no two parameters share a name and lmfit accepts the names. The first script succeeds. The second fails only if the optimizer fails, never if the optimizer finds what there is to find, and otherwise it returns the measured data, parameters between -100 and 100 that are attached to the right symbols, and a curve of 1000 points that is the pattern of the stored formula for these parameters turned by psi. No parameters between the bounds give a turned pattern whose root mean square deviation from the interpolated values, beyond the part that no parameters can remove, is smaller by more than the root of the tolerance of the optimizer and a multiple of the rounding of the Fourier components. A name that lmfit does not accept gives KeyError.", "quantifier": "all files, units, stored formulas, set orders of both processes, random guesses, tolerances and rounding errors", "why_tests_cant": "a statement about two programs that communicate through a file, for all inputs, all hash seeds and all competing parameters", "anchors": ["examples/gen_cost_func_example.py:cost_func", "examples/fit_cost_func_example.py:subs_dict", "shgpy/fformfit.py:gen_cost_func", "shgpy/fformfit.py:load_func", "shgpy/core/data_handler.py:get_free_symbols", "shgpy/core/data_handler.py:fform_to_dat"]}
{"id": "C115", "title": "The example scripts store and draw formulas for exactly the crystals of the point group, and fitting them finds the best tensor", "statement": "Run examples/gen_fform_from_form_example.py for any point group of the dipole table for which sympy solves the symmetry equations, any matrix and any number for the angle of incidence. The script succeeds and changes only the file it saves. The formula that is loaded from this file has the four combinations, and the patterns that it takes, over all values of its parameters, are exactly the patterns of the intensity radiated by real dipole tensors with the symmetry of the point group, turned by the matrix; if the matrix is orthogonal, these are the patterns of the crystals with the turned point group. Fitting this file with examples/fit_fform_example.py returns the patterns of one such crystal, turned about the normal, and no other such crystal whose tensor elements are at most 2 fits the data better by more than the tolerance of the optimizer and the rounding. examples/gen_form_example.py draws the curves of one such crystal, whatever numbers are drawn, except that it fails with ValueError when the curves of that crystal do not depend on the angle.", "quantifier": "all point groups, matrices, angles of incidence, files, random numbers, data, tolerances and rounding errors", "why_tests_cant": "an equality of two infinite sets of curves and a statement about all competing tensors, for all inputs", "anchors": ["examples/gen_fform_from_form_example.py:t_dipole", "examples/gen_form_example.py:subs_dict", "examples/fit_fform_example.py:least_squares_fit_with_bounds", "shgpy/formgen.py:formgen", "shgpy/core/utilities.py:particularize", "shgpy/core/utilities.py:transform", "shgpy/tensor_definitions.py:dipole", "shgpy/core/data_handler.py:form_to_fform", "shgpy/core/data_handler.py:form_to_dat"]}
{"id": "C116", "title": "The formulas of fformgen contain no symbols but those of the tensors and of the angle of incidence", "statement": "Load a file that generate_contracted_fourier_transforms saved from the transforms of generate_uncontracted_fourier_transforms. Every symbol that get_free_symbols lists occurs in the dipole or in the quadrupole tensor that was given: none of the symbols that are used on the way (the field, the angle of incidence, the azimuth) is left. With generate_uncontracted_fourier_transforms_symb the only further symbol is theta. Both also hold with ndigits. So the parameters of a fit are the elements of the tensors, and possibly theta.", "quantifier": "all tensors, angles of incidence, numbers of digits and stored files", "why_tests_cant": "it must hold for all tensors and every term of all components", "anchors": ["shgpy/fformgen.py:generate_uncontracted_fourier_transforms", "shgpy/fformgen.py:generate_uncontracted_fourier_transforms_symb", "shgpy/fformgen.py:generate_contracted_fourier_transforms", "shgpy/fformgen.py:_substitute_into_array", "shgpy/core/data_handler.py:fFormContainer.get_free_symbols"]}
{"id": "C117", "title": "The scripts around fformgen describe the crystals of a point group up to rounding, and a fit with their file finds the best crystal up to rounding", "statement": "Run generate_uft_example.py (or generate_uft_symb_example.py) and then generate_cft_example.py (or generate_cft_quadrupole_example.py), with any point group, matrix, angle of incidence and number n of digits, where sympy solves the equations of particularize. Both scripts succeed, write no file but the one asked for, and the file holds the four combinations with M = 16. For parameters of bounded size, its pattern is the intensity of a crystal of the point group (turned by the matrix, seen half a turn away) up to a constant times 10^-n, and every crystal of the point group with elements of that size is met; with the symbolic script theta is the angle of incidence. If fit_fform_example.py then fits the file to data, the curve it draws is, up to a constant times 10^-n, that of a crystal of the point group at some angle, and no crystal with elements between -2 and 2 has a root mean square deviation from the data that is smaller by more than the errors of the optimizer, of the rounding of the data and a constant times 10^-n. The constant does not depend on n, on the data, on the optimizer or on the formula that was stored.", "quantifier": "all point groups of the tables, matrices, angles of incidence, numbers of digits, data files, optimizers and roundings", "why_tests_cant": "it compares with all crystals of the point group and all numbers of digits", "anchors": ["examples/generate_uft_example.py:generate_uncontracted_fourier_transforms", "examples/generate_uft_symb_example.py:generate_uncontracted_fourier_transforms_symb", "examples/generate_cft_example.py:t_dipole", "examples/generate_cft_quadrupole_example.py:t_quad", "examples/fit_fform_example.py:least_squares_fit_with_bounds", "shgpy/fformgen.py:generate_contracted_fourier_transforms"]}
{"id": "C118", "title": "A model function that one script saves and another one fits finds the best parameters, orientation and crystal", "statement": "Run gen_model_func_example.py and then, in another process, fit_model_func_example.py, with any data files and any stored Fourier formula that load, where every measured combination has a formula and more than 32 points, the formula has the four combinations and real symbols with different names accepted by lmfit, none of them psi. The first script succeeds. The second one fails only if the optimizer fails; otherwise it returns the measured data, parameters within the bounds (-100 to 100, and psi from 0 to 2 pi) and curves for the four combinations, without warnings: the curves are exactly those of the formula at these parameters, turned back by psi, and no parameters within -100 and 100 and no angle whatsoever have a smaller root mean square deviation from the measured data (beyond the part that no parameters remove), up to what the optimizer misses. The order in which the processes iterate over sets and list folders does not matter. If a combination is measured that has no formula, the second script raises KeyError. If the formula is that of gen_fform_from_form_example.py, the curves are those of a crystal of the point group, and no crystal of the point group with elements up to 100 at any angle is closer to the data.", "quantifier": "all data files, stored formulas, point groups, matrices, angles of incidence, optimizers, iteration orders and states of the disk", "why_tests_cant": "it compares with all parameters, all angles and all crystals, and ranges over all pairs of processes", "anchors": ["examples/gen_model_func_example.py:model_func", "examples/fit_model_func_example.py:fit_iterable", "shgpy/fformfit.py:gen_model_func", "shgpy/fformfit.py:load_model_func", "shgpy/core/data_handler.py:as_pandas", "shgpy/core/data_handler.py:fdat_to_dat"]}
{"id": "C119", "title": "The scripts that show data and formulas show what is in the files", "statement": "data_plot_example.py, with any data files that load and two to four combinations of the data, succeeds: its first figure shows, for every combination in order, the measured points; the second and third one show the same points with values 100 times as large at angles a quarter turn larger, ordered by angle, and the plots of the polar figure have their only radial tick at 100 times the largest value of the data. It fails only if the files do not load, for more than four combinations or none (ValueError), a combination that was not measured (KeyError), or a single combination (AttributeError). pandas_example.py, with any data files and any stored formula that load, where there are data and every combination has at least two points, succeeds: the frames hold the measured points in degrees, the Fourier components of the orders -16 to 16 of the interpolated data, the components of the formula, and for every combination a formula equal to the sum of the Fourier series. look_at_fformula_example.py prints, for every combination in order, one line for each of the orders -16 to 16, with an expression equal to the component of this order.", "quantifier": "all data files, stored formulas, styles, choices of combinations, interpolations and values of the symbols", "why_tests_cant": "it holds for all files and all values of the symbols in the formulas", "anchors": ["examples/data_plot_example.py:easy_polar_plot", "examples/pandas_example.py:as_pandas", "examples/look_at_fformula_example.py:get_pc", "shgpy/plotter.py:easy_plot", "shgpy/core/data_handler.py:as_pandas", "shgpy/core/data_handler.py:fform_to_form"]}
{"id": "C120", "title": "Fourier data sampled in floating point arithmetic are accurate", "statement": "fdat_to_dat computes with float64.  For every Fourier data and every number of points it succeeds with the combinations of the data, the computed angles are kept as they are, and each value differs from the real part of the Fourier series at the exact angle by a bound relative to the sum of the absolute values of the components: below 2^-43 for up to 100 frequencies, when NumPy's cosine and sine are accurate to 2^-44.  Transforming data with dat_to_fdat and back with fdat_to_dat gives the trigonometric polynomial of the interpolated values, up to 2M+1 times the combined relative error of both functions times the mean absolute value.", "quantifier": "all Fourier data, numbers of points, numbers of digits, ways of rounding to nearest, interpolations, and products of complex numbers with or without fused operations", "why_tests_cant": "it holds for all components, all numbers of points and all rounding errors", "anchors": ["shgpy/core/data_handler.py:fdat_to_dat", "shgpy/core/data_handler.py:dat_to_fdat"]}
{"id": "C121", "title": "Merging containers can be exchanged with converting them", "statement": "merge_containers followed by a conversion gives exactly the container that converting each container and then merging gives: for dat_to_fdat, fdat_to_dat, form_to_fform, fform_to_form, fform_to_fdat, fform_to_dat and, when the new keys are distinct, form_to_dat.  This holds for every mapping of the keys, also when merging drops combinations.  With clashing keys form_to_dat is an exception: when no formula that depends on phi survives the merge, converting the merged container raises ValueError although each container can be converted and the results can be merged.", "quantifier": "all non-empty lists of containers of one kind, all mappings of the keys, all numbers for the symbols, all interpolations and numbers of points", "why_tests_cant": "it relates two programs for all lists of containers and all mappings", "anchors": ["shgpy/core/data_handler.py:merge_containers", "shgpy/core/data_handler.py:dat_to_fdat", "shgpy/core/data_handler.py:fdat_to_dat", "shgpy/core/data_handler.py:form_to_fform", "shgpy/core/data_handler.py:fform_to_form", "shgpy/core/data_handler.py:fform_to_fdat", "shgpy/core/data_handler.py:fform_to_dat", "shgpy/core/data_handler.py:form_to_dat"]}
{"id": "C122", "title": "The compiled cost and its gradient are accurate in floating point arithmetic", "statement": "The functions that gen_cost_func and the gradient fits compile compute with double.  Whatever the order in which the terms of a sum and the factors of a product are written, what the cost function returns, in chunks or not, differs from the misfit of formula and data by at most (1+u)^n-1 times the size of the quantities that are added up, where u is the rounding unit, n the number of roundings in the expression and the size is the value of the expression with all numbers and parameters replaced by their absolute values.  The same holds for each component of the compiled gradient and the derivative of the misfit.  The factor is at most 2nu, below 2^-32 for a million roundings in double precision.  Parameters with the lowest cost in floating point arithmetic have the lowest misfit up to the errors of the evaluations.", "quantifier": "all formulas without powers of quantities that are not real, all data, parameter values, orders of evaluation, numbers of digits and ways of rounding to nearest", "why_tests_cant": "it holds for all formulas, all parameter values and all rounding errors", "anchors": ["shgpy/fformfit.py:gen_cost_func", "shgpy/fformfit.py:_fixed_autowrap", "shgpy/fformfit.py:_make_energy_func_chunked", "shgpy/fformfit.py:_make_denergy_func_auto"]}
{"id": "C123", "title": "Complex arrays never end up in a DataContainer", "statement": "DataContainer does not test for complex arrays: the shape test accepts them.  When the constructor has to compute with an angle of a complex array (in degrees: some value is complex; in radians: some value that is not overridden under normal_to_oblique is complex and has points), it raises ValueError if the unit, a key, a shape or (in radians with normal_to_oblique) the set of combinations is not accepted, and TypeError otherwise.  In all other cases the constructor does exactly what it does for the real parts.  Hence a container is never built from complex data: if the constructor succeeds although a value is complex, that value was overridden by a later one for the same combination.", "quantifier": "every input iterable with real and complex arrays of any shape, every units string, both flags", "why_tests_cant": "it ranges over all iterables, shapes and positions of complex arrays", "anchors": ["shgpy/core/data_handler.py:_check_defining_iterable", "shgpy/core/data_handler.py:_remove_duplicates", "shgpy/core/data_handler.py:_coerce_to_oblique_incidence", "shgpy/core/data_handler.py:_convert_data_dict_to_radians"]}
{"id": "C124", "title": "A fit computed in floating point arithmetic is nearly the best fit of the measurement", "statement": "Let a measurement be transformed with dat_to_fdat (float64, stored as complex64) and a cost function be compiled from a formula and the result (double). If the number that the cost function returns for the parameters r is not above the one it returns for r0, the root mean square deviation of the pattern for r from the interpolated measurement is at most the one for r0 plus an error; the pattern for r is at most twice the deviation of the measurement from the pattern for r0, plus the error, away from the pattern for r0, in the root mean square, and at most sqrt(2M+1) times as far at every angle. With K combinations of mean absolute value up to b, n roundings and quantities of size B in the cost, the error is at most 2^-22 b sqrt(K(2M+1)) + sqrt(n 2^-52 B).", "quantifier": "all measurements with more than 2M and at most 2^20 points, all interpolations, all formulas without powers of quantities that are not real, all parameter values, orders of evaluation and ways of rounding to nearest, with and without chunking", "why_tests_cant": "it holds for all measurements, formulas, parameters and rounding errors", "anchors": ["shgpy/core/data_handler.py:dat_to_fdat", "shgpy/fformfit.py:gen_cost_func", "shgpy/fformfit.py:_fixed_autowrap", "shgpy/fformfit.py:_make_energy_func_chunked"]}
{"id": "C125", "title": "How a measurement is written does not matter", "statement": "Let two dictionaries hold the same float points (up to full turns, no direction twice in a combination), one perhaps in degrees and the other in radians, with the points and the keys in any order. DataContainer accepts both or neither, and the two containers answer get_pc, get_scale, get_offset and get_phase_shift alike, and have the same keys up to order; this stays so under the same sequence of method calls, which raise the same exceptions. Their Fourier data are the same, so gen_cost_func and all fitting routines do exactly the same with them: result, exception and files. Putting the rows of csv files into another order does not change what load_data, load_data_and_fourier_transform and the fitting scripts return.", "quantifier": "all dictionaries of float arrays, both units, all orders of points and keys, all histories of method calls (with filter functions that accept every array and keep its length), all interpolations, formulas, optimizers, guesses, bounds and options, all files", "why_tests_cant": "it holds for all measurements, all orders and all histories of calls", "anchors": ["shgpy/core/data_handler.py:DataContainer", "shgpy/core/data_handler.py:dat_to_fdat", "shgpy/core/data_handler.py:read_csv", "shgpy/core/data_handler.py:load_data", "shgpy/core/data_handler.py:load_data_and_fourier_transform", "shgpy/fformfit.py:gen_cost_func", "shgpy/fformfit.py:least_squares_fit", "shgpy/fformfit.py:basinhopping_fit_jac", "shgpy/fformfit.py:dual_annealing_fit_with_bounds", "examples/fit_fform_example.py:load_data_and_fourier_transform"]}
{"id": "C126", "title": "Reversing the angle of incidence", "statement": "Light at the angle of incidence -theta sees the crystal as light at theta sees it half a turn further: the formulas formgen returns for -theta have, at every azimuth phi, the values of those for theta at phi + pi. So the Fourier files fformgen writes for opposite angles differ exactly by the sign of the odd components, and form_to_fform(formgen(-theta)) agrees, component by component, with the file fformgen writes for theta. From behind the surface, at pi - theta, one sees the crystal turned over: formgen of the tensors transformed by the reflection at z = 0 (the magnetic one, being axial, by the opposite matrix) at pi - theta has the values of formgen of the original tensors at theta, and tensors from the tables whose point group contains this reflection give the same patterns from both sides.", "quantifier": "all real tensors (dipole, magnetic dipole, quadrupole) that formgen or fformgen accepts, all angles of incidence, all polarizations, all components, all values of the parameters and of phi", "why_tests_cant": "it holds for all tensors, angles and parameter values", "anchors": ["shgpy/formgen.py:formgen", "shgpy/fformgen.py:generate_uncontracted_fourier_transforms", "shgpy/fformgen.py:generate_contracted_fourier_transforms", "shgpy/core/data_handler.py:form_to_fform", "shgpy/core/utilities.py:transform", "shgpy/tensor_definitions.py:dipole"]}
{"id": "C127", "title": "Fourier formulas are those of intensities", "statement": "The Fourier formulas of a crystal, made with form_to_fform(formgen(...)) or read from a file of fformgen, are for all real values of the parameters the Fourier components of a pattern that is real and nowhere negative: components m and -m are conjugate, component 0 is real, not negative and at least as large as the modulus of every other component, and the pattern nowhere exceeds 17 times (without quadrupole 13 times) component 0; in particular it is dark when component 0 vanishes. So fform_to_dat never returns a negative value, and dat_to_fdat(fform_to_dat(fform, subs, N), M=16) with N >= 33 has the components of fform_to_fdat(fform, subs).", "quantifier": "all tensors that formgen or fformgen accepts, all angles of incidence, all polarizations, all real values of the parameters, all numbers of points", "why_tests_cant": "it holds for all crystals, parameter values and numbers of points", "anchors": ["shgpy/formgen.py:formgen", "shgpy/core/data_handler.py:form_to_fform", "shgpy/core/data_handler.py:fform_to_dat", "shgpy/core/data_handler.py:fform_to_fdat", "shgpy/core/data_handler.py:dat_to_fdat", "shgpy/core/data_handler.py:load_fform", "shgpy/fformgen.py:generate_contracted_fourier_transforms"]}
{"id": "C128", "title": "Model functions generated by several processes in different folders do not disturb each other", "statement": "When any number of processes call gen_model_func at the same time and no two of them use the same folder, then for every interleaving of their steps on the file system no process fails, each folder is at all times missing, a part of the old folder, or a folder with libraries of its own process only, and when a process is through its folder has exactly the libraries that the call leaves when it is alone, whatever was in the folder before; nothing else is changed. A later process that loads the folder with load_model_func gets the values of the formula of this process.", "quantifier": "all numbers of processes, formulas, folders, old contents and schedules; all orders in which directories are listed", "why_tests_cant": "ranges over all interleavings of all processes; a test run sees one schedule", "anchors": ["shgpy/fformfit.py:gen_model_func", "shgpy/fformfit.py:_fixed_autowrap_model", "shgpy/fformfit.py:load_model_func", "shgpy/fformfit.py:_rmtree_warn"]}
{"id": "C129", "title": "Model functions generated by several processes in the same folder", "statement": "When two processes call gen_model_func with the same folder at the same time, both should succeed and the folder should be the one of one of them. This holds when one call begins after the other has ended. Otherwise one of them can raise FileExistsError, or both can succeed and leave a folder with libraries of both, from which load_model_func makes a function that has the values of neither formula.", "quantifier": "all folders, formulas, old contents and schedules", "why_tests_cant": "the failures depend on the interleaving of the processes", "anchors": ["shgpy/fformfit.py:gen_model_func", "shgpy/fformfit.py:_fixed_autowrap_model", "shgpy/fformfit.py:load_model_func", "shgpy/fformfit.py:_rmtree_warn"]}
{"id": "C130", "title": "Loading while another process saves", "statement": "When a process loads a cost function, a cost function with its gradient or a model function while another process is saving one under the same names, it should raise or get the one that was saved before or the one that is being saved. This holds for cost functions (the exception is OSError). For the others it is false: a cost can come without its gradient, and a model function can have some values of the old and some of the new model. What holds is that the cost, every derivative and every library that a model function sums up was saved under its name before or is being saved, and that without another process loading is what it always is.", "quantifier": "all interleavings of the steps of the two processes, all formulas, data, names and old contents of the disk, all orders in which folders are listed", "why_tests_cant": "ranges over all moments at which the operations of one process can fall between those of the other", "anchors": ["shgpy/fformfit.py:load_func", "shgpy/fformfit.py:_load_func_dict", "shgpy/fformfit.py:load_model_func", "shgpy/fformfit.py:_load_energy_and_denergy_func", "shgpy/fformfit.py:gen_cost_func", "shgpy/fformfit.py:gen_model_func"]}
{"id": "C131", "title": "Which tensor elements a measurement sees", "statement": "The intensity in a polarization combination depends only on those elements of the susceptibility tensors whose indices can occur: for each index the field (S: axes in the surface; P: also the normal, except at normal or grazing incidence), the wave vector or the radiating direction must have a component along the axis at some azimuth. Every such element is seen. So formulas that formgen returns agree when the seen elements agree, and the cost of a choice of combinations is the same whatever the unseen elements are: no fit to them can determine those.", "quantifier": "all tensors, angles of incidence, azimuths, combinations, data and values of the parameters", "why_tests_cant": "ranges over all tensors and values of their elements", "anchors": ["shgpy/formgen.py:formgen", "shgpy/fformgen.py:generate_contracted_fourier_transforms", "shgpy/fformfit.py:gen_cost_func", "shgpy/core/data_handler.py:fFormContainer"]}
{"id": "C132", "title": "An interrupted generation of Fourier formulas is noticed", "statement": "When a call that writes uncontracted Fourier transforms for an angle of incidence is interrupted at any point, contracting the files raises an exception or gives the formulas of one angle of incidence; repeating the call repairs the files. When the saving of the contracted formulas is interrupted, load_fform raises; otherwise it returns the formulas.", "quantifier": "all prefixes, angles of incidence (numbers or the symbol theta), tensors, earlier files and crash points", "why_tests_cant": "quantifies over every crash point and all files left by earlier calls", "anchors": ["shgpy/fformgen.py:generate_uncontracted_fourier_transforms", "shgpy/fformgen.py:generate_uncontracted_fourier_transforms_symb", "shgpy/fformgen.py:generate_contracted_fourier_transforms", "shgpy/fformgen.py:_save_fform_dict", "shgpy/fformgen.py:_load_pickle", "shgpy/core/data_handler.py:save_fform", "shgpy/core/data_handler.py:load_fform"]}
{"id": "C133", "title": "Processes that generate Fourier formulas at the same time", "statement": "Processes that write uncontracted Fourier transforms under different prefixes do not disturb each other, whatever the order of their steps and also when some are interrupted. A process that contracts the files of a prefix while another one writes them, and processes that write under the same prefix, get an exception or the formulas of one angle of incidence.", "quantifier": "all numbers of processes, prefixes, angles of incidence, tensors, interleavings and interruptions", "why_tests_cant": "quantifies over all schedules of the processes", "anchors": ["shgpy/fformgen.py:generate_uncontracted_fourier_transforms", "shgpy/fformgen.py:generate_uncontracted_fourier_transforms_symb", "shgpy/fformgen.py:generate_contracted_fourier_transforms", "shgpy/fformgen.py:_save_fform_dict", "shgpy/fformgen.py:_load_pickle", "shgpy/core/data_handler.py:save_fform", "shgpy/core/data_handler.py:load_fform"]}
{"id": "C134", "title": "A method call that is stopped in the middle leaves the container as before or as after", "statement": "When a call of a method that changes a DataContainer, fDataContainer, fFormContainer or FormContainer is stopped by an exception from outside (KeyboardInterrupt), the container is as before or as after the call; whatever calls have been stopped, the combinations, the numbers of points and the ranges of the angles are kept.", "quantifier": "all containers, methods, arguments, moments, and histories in which any calls are stopped", "why_tests_cant": "quantifies over every moment at which a call can be stopped and all histories of such calls", "anchors": ["shgpy/core/data_handler.py:DataContainer", "shgpy/core/data_handler.py:fDataContainer", "shgpy/core/data_handler.py:fFormContainer", "shgpy/core/data_handler.py:FormContainer"]}
{"id": "C135", "title": "Measurements at unequal angles give accurate Fourier data with linear interpolation", "statement": "When the measured points lie on a pattern with components up to frequency M, up to a noise delta, at more than 2M angles that increase by at most h and cover the turn, dat_to_fdat(dat, 'linear', M=M) succeeds and the root of the sum of the squared errors of the components is at most h^2 sum m^2 |c_m| + 3 delta. In particular this holds for equally spaced points turned by any angle, with h the spacing; and parameters that the cost function of such data does not find worse than the true ones give a pattern close to the true one.", "quantifier": "all patterns, numbers of points, angles, noises, angles of turning, formulas, parameters", "why_tests_cant": "an error bound over all patterns and all placements of the angles", "anchors": ["shgpy/core/data_handler.py:dat_to_fdat", "shgpy/core/data_handler.py:DataContainer", "shgpy/fformfit.py:_make_energy_expr"]}
{"id": "C136", "title": "Threads that use one DataContainer at the same time", "statement": "Several threads call scale_data, subtract_min, normalize_data, phase_shift_data and filter on one DataContainer. The container should be the one that the calls give in some order. With a lock around each call it is. Without a lock it need not be: an update of the data can be lost although the recorded scale contains it, and points can stay out of order; but at every moment the combinations and the numbers of points are unchanged and the angles lie within one turn, and when the calls are scalings and phase shifts each combination has the points that some of the calls give, each call at most once, and so have the recorded scale and phase shift.", "quantifier": "all containers, numbers of threads, lists of calls and interleavings of the single accesses to the instance", "why_tests_cant": "the number of interleavings is unbounded, and those that go wrong are rarely met in a test", "anchors": ["shgpy/core/data_handler.py:DataContainer"]}
{"id": "C137", "title": "Fourier data of measurements at unequal angles with the default cubic interpolation", "statement": "Let the points of each combination lie on a real pattern with components up to M, up to the noise delta, at more than 2M angles, and at least four, whose distances are between h/rho and h and that reach the ends of the turn. Then dat_to_fdat(dat, M=M) with the default interp_kind='cubic' succeeds, and its components are those of the pattern with an error of at most 14 rho h^4 sum m^4 |c_m| + 75 rho^3 delta; so are those of equally spaced points turned by any angle by phase_shift_data, and a fit to such data finds the pattern with a corresponding error. The cubic interpolation passes through the points, is linear in the values, and is the only twice continuously differentiable function through the points that is a cubic polynomial between successive angles, without knots at the second and the last but one. For equally spaced angles, at least four, dat_to_fdat with it is the discrete Fourier transform, it undoes fdat_to_dat with N > 2M points, and data simulated with fform_to_dat for N >= 33 are fitted exactly.", "quantifier": "all containers, numbers of points, angles, patterns, noise, maximal orders and phase shifts", "why_tests_cant": "the angles and the pattern are arbitrary real numbers, and the bound must hold for all of them", "anchors": ["shgpy/core/data_handler.py:dat_to_fdat", "shgpy/core/data_handler.py:DataContainer"]}
{"id": "C138", "title": "A thread that reads a DataContainer while another thread changes it", "statement": "While one thread calls scale_data, subtract_min, normalize_data, phase_shift_data and filter on a DataContainer, what other threads read (get_items, get_pc, get_scale, get_offset, get_phase_shift) should be the container after some number of the calls, and this number should never decrease. It holds for each combination by itself, up to the order of its points, and for the recorded numbers together, and the number is that of the finished calls or one more. It holds for all combinations together when only scalings and phase shifts are called. It does not hold for all combinations while subtract_min is called, nor for the data together with the scale, nor for the order of the points.", "quantifier": "all containers, lists of calls, combinations and moments of reading", "why_tests_cant": "quantifies over every moment of every sequence of calls; the moments that go wrong are short and rarely met in a test", "anchors": ["shgpy/core/data_handler.py:DataContainer"]}
{"id": "C139", "title": "Data measured at four or more directions can be Fourier transformed with the default interpolation", "statement": "If every combination of a DataContainer was given at four or more different directions, dat_to_fdat(dat, M) with the default interpolation succeeds, after any history of scale_data, subtract_min, normalize_data, phase_shift_data and filter. It does when the angles were written within one turn, 0 <= theta < 360 degrees. It does not when two points of one direction are left by the constructor, as for a scan from -180 to 180 degrees: the constructor gives no warning and dat_to_fdat raises ValueError. Exactly: it succeeds if and only if every combination has at least four points and no two with the same angle, and the history does not matter.", "quantifier": "all raw data, units, histories of calls and M", "why_tests_cant": "quantifies over all data sets and histories; the failing data sets are those whose scan crosses the end of the turn in one order", "anchors": ["shgpy/core/data_handler.py:DataContainer", "shgpy/core/data_handler.py:dat_to_fdat"]}
{"id": "C140", "title": "A thread that reads Fourier data or formulas while another thread changes them", "statement": "While one thread calls the changing methods of an fDataContainer, fFormContainer or FormContainer, what other threads read (get_items, get_pc, get_M, get_scale, get_phase_shift) should be the container after some number of the calls, and this number should never decrease. It holds exactly for each combination by itself, and for the recorded scale and phase shift together; the number is that of the finished calls or one more. It holds for all combinations together when only scale_fdata and normalize_fdata, or only subs and apply_phase_shift of formulas, are called; when simplify and expand are called too it holds for the values of the formulas. Combinations, get_M and the lengths of the arrays never change. It does not hold for all combinations while phase_shift_fdata or apply_arbitrary_scale is called.", "quantifier": "all containers, lists of calls, combinations and moments of reading", "why_tests_cant": "quantifies over every moment of every sequence of calls; the moments that go wrong are short and rarely met in a test", "anchors": ["shgpy/core/data_handler.py:fDataContainer", "shgpy/core/data_handler.py:fFormContainer", "shgpy/core/data_handler.py:FormContainer"]}
{"id": "C141", "title": "From files measured at any angles to Fourier data and fits, with the default options", "statement": "Let the files hold, in degrees or radians, a measurement at more than 2M and at least four angles of one turn, with distances between h/rho and h that reach the ends of the turn, whose points (the differences, when dark files are given) lie up to the noise delta on rotational anisotropy patterns with frequencies up to M. Then load_data_and_fourier_transform with its default interpolation returns the points, lowered by their least value if min_subtract is set, and Fourier components which differ from those of the patterns (the zeroth lowered by that value) by at most 14 rho h^4 sum m^4 |c_m| + 75 rho^3 delta in the root of the sum of squares; and any parameters that the cost function of a formula does not find worse than the true ones give patterns near the true ones, with a bound made of these numbers.", "quantifier": "all files, units, dark files, values of min_subtract, numbers of frequencies, angles, noise, formulas and parameters", "why_tests_cant": "an error bound for every set of angles, every pattern and every noise; tests can only try some", "anchors": ["shgpy/core/data_handler.py:load_data_and_fourier_transform", "shgpy/core/data_handler.py:load_data", "shgpy/core/data_handler.py:load_data_and_dark_subtract", "shgpy/core/data_handler.py:dat_to_fdat", "shgpy/fformfit.py:_make_energy_expr"]}
{"id": "C142", "title": "dat_to_fdat with interp_kind 'nearest', 'previous' or 'next'", "statement": "With interp_kind 'nearest', 'previous' or 'next', dat_to_fdat uses at each of the equally spaced angles the value of the nearest measured point, of the last one not behind the angle, or of the first one not before it. These interpolations pass through the points and are linear in the values. If the points lie, up to the noise delta, on patterns with frequencies up to M at more than 2M angles, and every equally spaced angle has such a measured angle within d, then the Fourier components differ from those of the patterns by at most d sum |m| |c_m| + delta in the root of the sum of squares (the noise is not amplified), and fits recover the patterns within a bound made of these numbers.", "quantifier": "all data, kinds, numbers of frequencies, angles, noise, formulas and parameters", "why_tests_cant": "an error bound for every set of angles, every pattern and every noise; tests can only try some", "anchors": ["shgpy/core/data_handler.py:dat_to_fdat", "shgpy/fformfit.py:_make_energy_expr"]}
{"id": "C143", "title": "Threads that use one fDataContainer at the same time", "statement": "Several threads call scale_fdata, normalize_fdata and phase_shift_fdata on one fDataContainer. The container should be the one that the calls give in some order. With a lock around each call it is. Without a lock it need not be: an update of the data can be lost although the recorded scale contains it, and combinations can end up turned by different angles although the angle is recorded; but at every moment the combinations, M and the lengths are unchanged, the components of each combination are the original ones times factors and turned by angles of some of the calls, each call at most once, and so are the recorded scale and phase shift.", "quantifier": "all containers, numbers of threads, lists of calls and interleavings of the single accesses to the instance", "why_tests_cant": "the number of interleavings grows without bound, and which one occurs is not under the control of a test", "anchors": ["shgpy/core/data_handler.py:fDataContainer.scale_fdata", "shgpy/core/data_handler.py:fDataContainer.normalize_fdata", "shgpy/core/data_handler.py:fDataContainer.phase_shift_fdata", "shgpy/core/data_handler.py:fDataContainer.get_items"]}
{"id": "C144", "title": "Threads that use one container of formulas at the same time", "statement": "Several threads call subs, apply_phase_shift, apply_arbitrary_scale (and simplify, expand) on one FormContainer or one fFormContainer. The container should be the one that the calls give in some order. With a lock around each call it is. Without a lock it need not be: simplify or expand can undo a substitution made meanwhile, and the components of one Fourier formula can end up after different calls; but at every moment the combinations and M are unchanged, and each formula or component is the original one after some of the calls in some order, each call at most once.", "quantifier": "all containers, numbers of threads, lists of calls and interleavings of the single accesses to the instance", "why_tests_cant": "the number of interleavings grows without bound, and which one occurs is not under the control of a test", "anchors": ["shgpy/core/data_handler.py:fFormContainer.subs", "shgpy/core/data_handler.py:fFormContainer.apply_phase_shift", "shgpy/core/data_handler.py:fFormContainer.apply_arbitrary_scale", "shgpy/core/data_handler.py:FormContainer.subs", "shgpy/core/data_handler.py:FormContainer.apply_phase_shift", "shgpy/core/data_handler.py:FormContainer.apply_arbitrary_scale", "shgpy/core/data_handler.py:FormContainer.simplify", "shgpy/core/data_handler.py:FormContainer.expand"]}
{"id": "C145", "title": "Measuring two of the four combinations at normal incidence is enough", "statement": "Measure PP or SS and PS or SP of a crystal at normal incidence, at N equally spaced angles and with an error of at most delta in each value, and load them with normal_to_oblique=True (DataContainer, or files with load_data_and_fourier_transform). dat_to_fdat with M >= 8, N > 2M and the default interpolation succeeds, and the components of all four combinations, measured or filled in, are those of the intensities of the crystal with an error of at most 14 (2 pi/N)^4 sum m^4 |c_m| + 75 delta. When N is a multiple of four, component m of a combination that was filled in is exactly (-i)^m times that of the measured partner, for data of any origin. Without errors of the values, and when N is a multiple of four, the components of all four combinations are exactly those of the crystal. With min_subtract the components are those of the intensities lowered by the least measured value, and with a dark measurement of the same combinations those of the differences, with the same error. A fit of a formula that describes the crystal finds its patterns with a corresponding error.", "quantifier": "all crystals, numbers of angles, maximal orders, measured values, letter cases and suffixes of the keys and units", "why_tests_cant": "a test sees one crystal and one number of angles; the relation of the filled in combinations to the crystal holds for all tensors and is lost by a wrong sign, partner or order of points only for some of them", "anchors": ["shgpy/core/data_handler.py:DataContainer.__init__", "shgpy/core/data_handler.py:dat_to_fdat", "shgpy/formgen.py:formgen", "shgpy/fformfit.py:gen_cost_func", "shgpy/core/data_handler.py:load_data_and_fourier_transform"]}
