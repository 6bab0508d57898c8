{"id": "C01", "title": "nested_loops enumerates the cartesian product exactly", "statement": "comb.nested_loops(lists) returns every combination that takes one element from each input list, each position-combination exactly once, in the order of nested for loops with the last list running fastest; flatten=True returns the same combinations with each one flattened to its leaves.", "quantifier": "all lists of lists (any number, any lengths, repeated values, nested entries)", "why_tests_cant": "tests try a handful of 2-3 level loops; completeness, order and multiplicity must hold for every number of levels and every length including 0", "anchors": ["src/pwtools/comb.py: nested_loops", "src/pwtools/common.py: flatten, iflatten"]}
{"id": "C02", "title": "unique2d keeps exactly the first occurrences", "statement": "comb.unique2d(arr, what=\"row\") returns each distinct row of arr exactly once, in order of first occurrence, and invents none; what=\"col\" does the same for columns; any other `what` raises ValueError.", "quantifier": "all 2d arrays", "why_tests_cant": "the claim ranges over all arrays and duplicate patterns", "anchors": ["src/pwtools/comb.py: unique2d"]}
{"id": "C03", "title": "backup never loses data", "statement": "common.backup(src) copies src to the first name src+prefix+N (N=0,1,2,...) which does not exist, and changes no existing file or directory; hence after any history of writes to src and backups, every backed-up version is still retrievable unchanged, and N is the number of earlier backups when nobody else created such names.", "quantifier": "all file system states and all histories of write/backup operations", "why_tests_cant": "histories are unbounded; tests do two or three backups", "anchors": ["src/pwtools/common.py: backup"]}
{"id": "C04", "title": "template_replace is simultaneous substitution", "statement": "common.template_replace(txt, dct, mode=\"txt\") replaces every occurrence of every key by its value, independent of the order of the dict, and leaves other text alone; a key not found does not change the text.", "quantifier": "all texts, all dicts", "why_tests_cant": "overlapping keys / values containing keys are exactly the inputs tests do not sample", "anchors": ["src/pwtools/common.py: template_replace"]}
{"id": "C05", "title": "seq2str / str2seq round trip", "statement": "str2seq(seq2str(seq)) gives back the sequence when the element strings contain no separator whitespace (e.g. all integers), with the default separators (the empty sequence included); with the same custom separator on both sides for every non-empty sequence whose element strings do not contain the first character of the separator (a separator that merely does not occur in the element strings is not enough).", "quantifier": "all finite sequences of strings / integers", "why_tests_cant": "round trip over all sequences, including empty", "anchors": ["src/pwtools/common.py: seq2str, str2seq, str2tup"]}
{"id": "C06", "title": "pop_from_list removes exactly the requested items", "statement": "common.pop_from_list(lst, items) returns a copy of lst without the requested items: the remaining elements in original order, exactly one (the first) occurrence removed per request; lst itself is not changed; if a request cannot be met it raises ValueError.", "quantifier": "all lists and item lists", "why_tests_cant": "multiset/ordering claim over all inputs", "anchors": ["src/pwtools/common.py: pop_from_list"]}
{"id": "C07", "title": "flatten yields the leaves in order", "statement": "common.flatten(seq) yields all non-sequence leaves (strings and file handles count as leaves) of an arbitrarily nested sequence, left to right, none lost, none duplicated, and is idempotent.", "quantifier": "all nestings of any depth", "why_tests_cant": "unbounded depth", "anchors": ["src/pwtools/common.py: iflatten, flatten, is_seq"]}
{"id": "C08", "title": "Documented string inputs of tobool, toslice, ffloat are accepted", "statement": "common.tobool accepts the documented strings (\".true.\", \"false\", \"1\", ...), toslice(\"3:7\") returns slice(3,7), ffloat(\"1.0d-03\") parses Fortran floats.", "quantifier": "all str inputs", "why_tests_cant": "the documented behaviour is claimed for all strings of the documented form", "anchors": ["src/pwtools/common.py: tobool, toslice, ffloat"]}
{"id": "C09", "title": "Getters are order independent and run at most once", "statement": "For a FlexibleGetters object whose getters depend on each other acyclically, calling set_all()/try_set_attr/check_set_attr in any order and any number of times leads to the same attribute values; attributes which are already set are never changed; a getter which produces a value is executed at most once.", "quantifier": "all acyclic getter systems, all attribute orders, all call histories", "why_tests_cant": "the number of orders is factorial and the histories unbounded", "anchors": ["src/pwtools/base.py: FlexibleGetters.set_all, try_set_attr, check_set_attr, check_set_attr_lst, is_set_attr"]}
{"id": "C10", "title": "lazyprop computes once", "statement": "A lazyprop attribute calls the decorated function at the first access on an instance and returns the same value at every later access without calling it again, independently for each instance; if the function raises nothing is cached.", "quantifier": "all access histories over any number of instances", "why_tests_cant": "unbounded histories", "anchors": ["src/pwtools/decorators.py: lazyprop"]}
{"id": "C11", "title": "TagTimer pairs start and stop per tag", "statement": "TagTimer.t(tag) alternately starts and stops the clock of that tag; every stop reports the time since the matching start of the same tag no matter how calls for other tags are interleaved.", "quantifier": "all interleavings of t() calls over any set of tags and any clock readings", "why_tests_cant": "interleavings are unbounded", "anchors": ["src/pwtools/timer.py: TagTimer.t, pt"]}
{"id": "C12", "title": "add_column / add_columns are idempotent and lossless", "statement": "SQLiteDB.add_column(s) on a table adds each missing column, with NULL in all rows, keeps all existing columns and values, and does nothing for an existing column; repeating the call changes nothing.", "quantifier": "all tables, all headers, all call sequences", "why_tests_cant": "holds over all db states and call histories", "anchors": ["src/pwtools/sql.py: SQLiteDB.add_column, add_columns, has_column, get_header"]}
{"id": "C13", "title": "fill_column / attach_column write exactly the requested rows or nothing", "statement": "SQLiteDB.fill_column(col, values, start, extend, overwrite) sets exactly the cells rowid=start.. of col to the values, touches no other cell, with overwrite=False never changes a non-NULL cell, and if it raises the table is unchanged (all-or-nothing).", "quantifier": "all tables, value lists, start rows and flags", "why_tests_cant": "partial failure appears only when a conflict sits in the middle of the data", "anchors": ["src/pwtools/sql.py: SQLiteDB.fill_column, attach_column, get_max_rowid"]}
{"id": "C14", "title": "SQL type normalisation", "statement": "fix_sqltype is idempotent and maps every spelling/case of FLOAT to REAL and leaves other types upper-cased; find_sqltype maps bool/int to INTEGER, float to REAL, str to TEXT and rejects anything else; sql_column builds one entry per value with that common type.", "quantifier": "all type strings and values", "why_tests_cant": "all inputs", "anchors": ["src/pwtools/sql.py: fix_sqltype, fix_sql_header, find_sqltype, sql_column"]}
{"id": "C15", "title": "ParameterStudy numbering over any history", "statement": "After any sequence of ParameterStudy.write_input calls on one database (mode \"a\" or \"w\", any numbers of parameter sets), the idx column holds exactly 0..n-1 with no gap or repetition since the last \"w\", each call of mode \"a\" gets revision = previous maximum + 1 and mode \"w\" restarts at revision 0, and every row belongs to the parameter set given.", "quantifier": "all histories of write_input calls", "why_tests_cant": "unbounded histories of appends/rewrites", "anchors": ["src/pwtools/batch.py: ParameterStudy.write_input"]}
{"id": "C16", "title": "Appending never touches old calculations", "statement": "write_input(mode=\"a\") writes calculation files only into directories calc_*/<idx> with new idx values, on every machine the same set of idx, one directory per new database row and vice versa; directories of earlier rows keep their content.", "quantifier": "all histories, any number of machines", "why_tests_cant": "unbounded histories", "anchors": ["src/pwtools/batch.py: ParameterStudy.write_input, Calculation.write_input"]}
{"id": "C17", "title": "A crash in write_input does not make two calculations share a directory", "statement": "If write_input(mode=\"a\") is interrupted at any point, a later write_input does not overwrite calculation directories of another parameter set that exist on disk.", "quantifier": "all crash points in all histories", "why_tests_cant": "crash points are never exercised by tests", "anchors": ["src/pwtools/batch.py: ParameterStudy.write_input"]}
{"id": "C18", "title": "excl_push lists exactly the old calculations", "statement": "With excl=True and an existing database, the excl_push file lists exactly the idx of all rows with an older revision, so that only new calculations get copied.", "quantifier": "all histories", "why_tests_cant": "unbounded histories", "anchors": ["src/pwtools/batch.py: ParameterStudy.write_input"]}
{"id": "C19", "title": "Parameter records: last key wins, all keys kept", "statement": "For one parameter set the record written to the database has exactly the keys occurring in the set (plus the administrative ones); when a key occurs more than once the last entry counts; the template replacement sees the same value as the database.", "quantifier": "all parameter sets", "why_tests_cant": "all inputs", "anchors": ["src/pwtools/batch.py: Calculation.__init__, ParameterStudy.write_input", "src/pwtools/sql.py: SQLEntry"]}
{"id": "C20", "title": "makedb keeps columns aligned", "statement": "makedb/get_dict: what is written as columns is read back by get_dict as the same columns in the same row order; append mode keeps old rows and rejects unknown columns or changed types.", "quantifier": "all rectangular data", "why_tests_cant": "all inputs and histories", "anchors": ["src/pwtools/sql.py: makedb, SQLiteDB.get_dict, get_list1d"]}
{"id": "C21", "title": "vlinspace and kpath hit their vertices", "statement": "num.vlinspace(a,b,num,endpoint) returns num equally spaced points on the line from a to b, first a, last b iff endpoint; kpath(ks,N) returns N*(K-1)+1 points, passes through vertex i at index i*N, equally spaced in each segment, and nothing twice.", "quantifier": "all dimensions, all numbers of vertices and points", "why_tests_cant": "parametric in sizes", "anchors": ["src/pwtools/num.py: vlinspace", "src/pwtools/kpath.py: kpath"]}
{"id": "C22", "title": "get_path_norm measures arc length from the first point", "statement": "kpath.get_path_norm(ks) is non-decreasing, has one value per k-point, differences are the distances of neighbouring points and it starts at 0.", "quantifier": "all k-paths", "why_tests_cant": "all inputs; typical tests start at Gamma=0", "anchors": ["src/pwtools/kpath.py: get_path_norm"]}
{"id": "C23", "title": "extend_array repeats along one new axis", "statement": "num.extend_array(arr, n, axis) returns an array with one more dimension of length n at position axis, every slice along it equal to arr; invalid axis raises.", "quantifier": "all shapes, n, axes", "why_tests_cant": "all shapes/axes", "anchors": ["src/pwtools/num.py: extend_array"]}
{"id": "C24", "title": "slicetake equals python slicing", "statement": "num.slicetake(arr, sl, axis) equals arr[..., sl, ...] with sl at position axis (negative axis counted from the end, axis=None with one slice per axis). By default it is a view: what is written to an entry of the result is seen in arr at its position and nowhere else, and the other way round; with copy=True neither sees what is written to the other.", "quantifier": "all shapes, axes and slices", "why_tests_cant": "all shapes/axes", "anchors": ["src/pwtools/num.py: slicetake"]}
{"id": "C25", "title": "num.sum sums over the requested axes", "statement": "num.sum(arr, axis, keepdims) sums over exactly the axes in `axis` (keepdims=False) or over all others (keepdims=True), independent of the order of the axes given and with negative axes counted from the end.", "quantifier": "all shapes, all axis tuples", "why_tests_cant": "tests use few literal axis tuples", "anchors": ["src/pwtools/num.py: sum"]}
{"id": "C26", "title": "match_mask finds exactly the requested values", "statement": "num.match_mask(arr, values, fullout, eps) marks exactly the elements of arr which equal (or are closer than eps to) one of the values and reports matching indices.", "quantifier": "all arrays and values", "why_tests_cant": "all inputs", "anchors": ["src/pwtools/num.py: match_mask"]}
{"id": "C27", "title": "order_similar / round_up_next_multiple helpers", "statement": "round_up_next_multiple(x,n) is the smallest multiple of n not below x; order_similar returns a permutation of its input.", "quantifier": "all inputs", "why_tests_cant": "all inputs", "anchors": ["src/pwtools/num.py: round_up_next_multiple, order_similar"]}
{"id": "C28", "title": "Polynomial bases are complete and evaluation matches", "statement": "num.poly_powers(ndim,deg) lists every exponent vector of the documented set exactly once; vander(points,deg) evaluates the monomials; polyval of a fit equals the sum of coefficient times monomial and is invariant under the internal scaling of points and values.", "quantifier": "all dimensions, degrees, points", "why_tests_cant": "all sizes", "anchors": ["src/pwtools/num.py: poly_powers, vander, polyval, polyfit"]}
{"id": "C29", "title": "norm_int normalises the area", "statement": "num.norm_int(y,x,area) rescales y by one common factor such that the (trapezoidal) integral equals `area`, whatever the internal scaling, if the integral of y is not zero.", "quantifier": "all sampled functions", "why_tests_cant": "all inputs", "anchors": ["src/pwtools/num.py: norm_int", "src/pwtools/thermo.py: HarmonicThermo._norm_int"]}
{"id": "C30", "title": "rms / rms3d", "statement": "rms(arr) >= 0, is zero iff arr is zero, is absolutely homogeneous; nitems=\"all\" equals dividing the sum of squares by the number of items; rms3d along axis equals rms of every 2d slice.", "quantifier": "all arrays", "why_tests_cant": "all inputs", "anchors": ["src/pwtools/num.py: rms, rms3d"]}
{"id": "C31", "title": "euler_matrix is a rotation", "statement": "num.euler_matrix(phi,theta,psi) is orthogonal with determinant 1 for all angles (degrees or radians), and inverting the rotation is euler_matrix(-psi,-theta,-phi).", "quantifier": "all angles", "why_tests_cant": "continuous domain", "anchors": ["src/pwtools/num.py: euler_matrix"]}
{"id": "C32", "title": "writetxt/readtxt restore arrays", "statement": "arrayio.readtxt(writetxt(arr, axis)) returns an array with the same shape and values for 1d, 2d and 3d arrays and every legal axis.", "quantifier": "all shapes and axes", "why_tests_cant": "edge shapes (length-1 or empty axes) are not sampled", "anchors": ["src/pwtools/arrayio.py: writetxt, readtxt, arr2d_to_3d, _read_header_config"]}
{"id": "C33", "title": "dcd readers agree and invert the writer layout", "statement": "read_dcd_data and read_dcd_data_ref return the same frames for every well formed dcd file, namely the stored unit cells (in a,b,c,alpha,beta,gamma order) and coordinates of each frame in order; a truncated file is rejected or only complete frames are returned.", "quantifier": "all numbers of atoms and frames, all contents", "why_tests_cant": "binary layout over all sizes", "anchors": ["src/pwtools/dcd.py: read_dcd_data, read_dcd_data_ref"]}
{"id": "C34", "title": "scell builds the supercell", "statement": "crys.scell(obj, dims) contains each atom translated by every lattice vector combination of the dims block exactly once, with its own symbol; the new cell has edge vectors dims[i]*cell[i] and volume |prod dims| times the old; fractional coordinates refer to the new cell; methods 1 and 2 agree; trajectories are treated per step.", "quantifier": "all structures, all non-zero dims, directions", "why_tests_cant": "any number of atoms and dims", "anchors": ["src/pwtools/crys.py: scell_mask, scell"]}
{"id": "C35", "title": "pbc_wrap moves atoms into the cell by lattice vectors only", "statement": "pbc_wrap_coords(coords_frac, mask) returns coordinates in [0,1) on masked axes, differing from the input by integers, unchanged on unmasked axes, idempotent; copy=True leaves the input alone.", "quantifier": "all coordinates, all masks", "why_tests_cant": "continuous domain", "anchors": ["src/pwtools/crys.py: pbc_wrap_coords, pbc_wrap"]}
{"id": "C36", "title": "min_image_convention", "statement": "min_image_convention(sij) terminates and returns values in [-0.5,0.5) that differ from sij by integers; it is idempotent, and the Fortran distsq_frac pbc loop computes the same.", "quantifier": "all arrays of finite numbers", "why_tests_cant": "loops over data dependent counts", "anchors": ["src/pwtools/crys.py: min_image_convention", "src/_ext_src/flib.f90: distsq_frac"]}
{"id": "C37", "title": "Minimum image distance is exact below rmax_smith", "statement": "For every cell, if some periodic image of an atom pair is closer than rmax_smith(cell) then the distance computed with the minimum image convention is that distance, and no other image is closer.", "quantifier": "all cells, all pairs", "why_tests_cant": "continuous domain; the claim is geometric", "anchors": ["src/pwtools/crys.py: rmax_smith, distances, min_image_convention"]}
{"id": "C38", "title": "coord_trans keeps points and is invertible", "statement": "coord_trans(coords, old, new) describes the same point in space in the new basis, coord_trans back with old and new swapped restores the coordinates, and transformations compose; coord_trans3d does it per time step.", "quantifier": "all coordinates, all invertible bases", "why_tests_cant": "continuous domain", "anchors": ["src/pwtools/crys.py: coord_trans, coord_trans3d, _trans"]}
{"id": "C39", "title": "coords and coords_frac are mutually inverse", "statement": "Structure/Trajectory: coords computed from coords_frac and cell, and coords_frac computed from coords and cell are inverse to each other for every non-singular cell, per step for trajectories.", "quantifier": "all coordinates and cells", "why_tests_cant": "continuous domain", "anchors": ["src/pwtools/crys.py: Structure.get_coords, get_coords_frac", "src/_ext_src/flib.f90: frac2cart, cart2frac, frac2cart_traj, cart2frac_traj"]}
{"id": "C40", "title": "recip_cell is the dual lattice", "statement": "recip_cell(cell) rows b_j satisfy a_i . b_j = 2 pi delta_ij for every non-singular cell, and recip_cell(recip_cell(cell)) = cell.", "quantifier": "all non-singular cells incl. left-handed", "why_tests_cant": "orientation of the cell is not sampled by tests", "anchors": ["src/pwtools/crys.py: recip_cell"]}
{"id": "C41", "title": "cryst_const <-> cell", "statement": "cell2cc(cc2cell(cc)) = cc for all valid lattice constants; cc2cell(cell2cc(cell)) has the same metric (all scalar products) as cell; volume_cc(cc) = volume_cell(cc2cell(cc)).", "quantifier": "all valid lattice constants / cells", "why_tests_cant": "continuous domain", "anchors": ["src/pwtools/crys.py: cell2cc, cc2cell, volume_cc, volume_cell"]}
{"id": "C42", "title": "celldm <-> cryst_const", "statement": "celldm2cc(cc2celldm(cc,fac=f),fac=1/f) = cc and vice versa.", "quantifier": "all lattice constants, all factors", "why_tests_cant": "continuous domain", "anchors": ["src/pwtools/crys.py: cc2celldm, celldm2cc"]}
{"id": "C43", "title": "Voigt conversion", "statement": "tensor2voigt(voigt2tensor(v)) = v, voigt2tensor(tensor2voigt(t)) = t for symmetric t, voigt2tensor always symmetric; the 3d versions do that per step.", "quantifier": "all tensors", "why_tests_cant": "all inputs", "anchors": ["src/pwtools/crys.py: voigt2tensor, tensor2voigt, voigt2tensor3d, tensor2voigt3d"]}
{"id": "C44", "title": "grid_in_cell / kgrid point counts", "statement": "grid_in_cell(cell,h,even,minpoints): each axis gets at least minpoints points; with even=True all counts are even; spacing differs from h by rounding only; size<->h are mutually consistent.", "quantifier": "all cells, h, minpoints", "why_tests_cant": "rounding and clamping interplay over all inputs", "anchors": ["src/pwtools/crys.py: grid_in_cell, kgrid"]}
{"id": "C45", "title": "nearest_neighbors returns the nearest neighbours", "statement": "nearest_neighbors(struct, idx, num, skip): returns the num atoms closest to atom idx among the atoms which are not skipped and not idx itself, sorted by distance; with cutoff: exactly the atoms closer than cutoff.", "quantifier": "all structures, idx, num, skip", "why_tests_cant": "combinations of skip/idx/ties", "anchors": ["src/pwtools/crys.py: nearest_neighbors_from_dists, nearest_neighbors"]}
{"id": "C46", "title": "velocity_traj is the central difference", "statement": "velocity_traj of a trajectory of linear motion gives the constant velocity; length of result follows endpoints option; equals (x[i+1]-x[i-1])/(2 dt) inside.", "quantifier": "all trajectories", "why_tests_cant": "all lengths", "anchors": ["src/pwtools/crys.py: velocity_traj"]}
{"id": "C47", "title": "Unit factors are applied exactly once", "statement": "A Structure/Trajectory scales each physical quantity by its unit factor exactly once no matter how often set_all/apply_units is called; every object returned by a parser get_struct()/get_traj(), at every call, has units applied exactly once.", "quantifier": "all call histories", "why_tests_cant": "repeated calls on the same parser are not sampled", "anchors": ["src/pwtools/crys.py: UnitsHandler.apply_units, _apply_units_raw, update_units", "src/pwtools/parse.py: StructureFileParser.get_cont"]}
{"id": "C48", "title": "Trajectory indexing and slicing is consistent", "statement": "traj[i] is the structure of step i; traj[a:b:c] holds exactly steps a, a+c, ... of every per-step quantity; slicing composes: traj[s][i] = traj[s(i)]; timestep is multiplied by the step.", "quantifier": "all trajectories, slices, indices", "why_tests_cant": "all slices incl. negative steps", "anchors": ["src/pwtools/crys.py: Trajectory.__getitem__"]}
{"id": "C49", "title": "Iterating a trajectory visits every step once in order", "statement": "for st in traj visits step 0..nstep-1 once each, at every loop, also after an earlier loop was left with break and for nested loops.", "quantifier": "all histories of iteration", "why_tests_cant": "state in the object; histories unbounded", "anchors": ["src/pwtools/crys.py: Trajectory.__iter__, __next__"]}
{"id": "C50", "title": "concatenate joins trajectories", "statement": "crys.concatenate(trlst): nstep is the sum; every per-step quantity of the result has length nstep and is the concatenation of the parts, in order; associative.", "quantifier": "all lists of trajectories with any set of populated attributes", "why_tests_cant": "attribute population patterns are not sampled", "anchors": ["src/pwtools/crys.py: concatenate, populated_attrs"]}
{"id": "C51", "title": "mean / mix are affine", "statement": "mix(a,b,0)=a, mix(a,b,1)=b, coordinates, cell and forces interpolate linearly; mean(traj) is the per-quantity average; mean of a constant trajectory is that structure.", "quantifier": "all structures and alpha", "why_tests_cant": "continuous domain", "anchors": ["src/pwtools/crys.py: mix, mean"]}
{"id": "C52", "title": "rpdf counts pairs", "statement": "The number integral of rpdf at the largest radius is the average number of pairs per central atom closer than rmax (as binned), and each pair is counted in the bin of its minimum image distance.", "quantifier": "all trajectories, masks", "why_tests_cant": "all inputs", "anchors": ["src/pwtools/crys.py: rpdf, call_vmd_measure_gofr (reference)"]}
{"id": "C53", "title": "Species bookkeeping is consistent", "statement": "symbols_unique is sorted without duplicates, order numbers them 1..ntypat, typat[i] is the number of symbols[i], nspecies counts sum to natoms, znucl/mass follow symbols.", "quantifier": "all symbol lists", "why_tests_cant": "all inputs", "anchors": ["src/pwtools/crys.py: Structure.get_symbols_unique, get_order, get_typat, get_ntypat, get_nspecies, get_znucl, get_znucl_unique"]}
{"id": "C54", "title": "align_cart is a rigid rotation", "statement": "align_cart re-expresses a structure in another orthonormal cartesian system: cell metric, volume, fractional coordinates and all distances are unchanged.", "quantifier": "all structures", "why_tests_cant": "continuous", "anchors": ["src/pwtools/crys.py: align_cart"]}
{"id": "C55", "title": "center_on_atom centers", "statement": "center_on_atom puts the given atom at fractional (0.5,0.5,0.5) and shifts all atoms by one common vector modulo the lattice.", "quantifier": "all structures/idx", "why_tests_cant": "continuous", "anchors": ["src/pwtools/crys.py: center_on_atom"]}
{"id": "C56", "title": "pad_zeros pads to the requested length", "statement": "signal.pad_zeros returns an array starting with the input followed by zeros only, with length N+nadd, upto, or the smallest power of two >= tonext_min, and rejects contradictory arguments.", "quantifier": "all lengths and arguments", "why_tests_cant": "all sizes", "anchors": ["src/pwtools/signal.py: pad_zeros"]}
{"id": "C57", "title": "mirror doubles the array symmetrically", "statement": "signal.mirror(arr, axis) has 2n-1 entries along axis, is symmetric about the middle, ends with arr.", "quantifier": "all arrays and axes", "why_tests_cant": "all ranks/axes", "anchors": ["src/pwtools/signal.py: mirror"]}
{"id": "C58", "title": "All acorr methods agree", "statement": "signal.acorr methods 1-7 compute the same c(t)=sum_i v_i v_{i+t}, normalised so that c(0)=1 with norm=True; |c(t)|<=c(0).", "quantifier": "all signals", "why_tests_cant": "all lengths and values", "anchors": ["src/pwtools/signal.py: acorr", "src/_ext_src/flib.f90: acorr"]}
{"id": "C59", "title": "signal.smooth is a normalised moving average of same length", "statement": "smooth(data, kern) has the shape of data for every kernel length, returns constant data unchanged with normalised kernel, equals the direct convolution with data mirrored at the edges, and is the identity for the delta kernel.", "quantifier": "all data lengths N and kernel lengths M", "why_tests_cant": "M>N and even M are corner cases", "anchors": ["src/pwtools/signal.py: smooth"]}
{"id": "C60", "title": "find_peaks finds the local maxima above ymin", "statement": "signal.find_peaks(y,x,ymin=..) returns exactly the local maxima with value >= ymin.", "quantifier": "all data", "why_tests_cant": "neighbour/threshold pattern", "anchors": ["src/pwtools/signal.py: find_peaks"]}
{"id": "C61", "title": "fftsample modes are inverse", "statement": "fftsample(*fftsample(a,b,mode=\"f\"),mode=\"t\") restores (a,b) for exact arithmetic, for mirr True and False.", "quantifier": "all positive a,b", "why_tests_cant": "continuous", "anchors": ["src/pwtools/signal.py: fftsample"]}
{"id": "C62", "title": "dft reference", "statement": "signal.dft methods \"loop\" and \"matmul\" agree and compute sum_n a_n exp(-2 pi i k n/N); it is linear.", "quantifier": "all complex arrays", "why_tests_cant": "all lengths", "anchors": ["src/pwtools/signal.py: dft"]}
{"id": "C63", "title": "VACF implementations agree for every thread schedule", "statement": "pyvacf methods 1,2,3 and fvacf methods 1,2 compute the same normalised mass weighted VACF; the OpenMP parallel loop gives the same result for every schedule.", "quantifier": "all velocities, masses, schedules", "why_tests_cant": "schedules cannot be enumerated", "anchors": ["src/pwtools/pydos.py: pyvacf, fvacf", "src/_ext_src/flib.f90: vacf, vect_loops"]}
{"id": "C64", "title": "Direct and VACF PDOS are the same spectrum", "statement": "pdos(method=\"direct\", npad=1) and pdos(method=\"vacf\", mirr=True) give the same frequencies and same normalised spectrum (exact arithmetic).", "quantifier": "all velocity arrays", "why_tests_cant": "Wiener-Khinchin identity for all lengths", "anchors": ["src/pwtools/pydos.py: pdos, direct_pdos, vacf_pdos", "src/pwtools/signal.py: mirror, pad_zeros"]}
{"id": "C65", "title": "scale / odd / welch helpers", "statement": "signal.scale maps to [0,1] hitting both ends, odd(n) is odd and within 1 of n, welch windows are symmetric, in [0,1] with zero ends.", "quantifier": "all inputs", "why_tests_cant": "all inputs", "anchors": ["src/pwtools/signal.py: scale, odd, welch"]}
{"id": "C66", "title": "Harmonic thermodynamics: E = F + T S", "statement": "For every phonon DOS and every T>0, evib = fvib + T*svib in consistent units; cv = dE/dT, S = -dF/dT. For T to infinity cv tends to the integral of the DOS (Dulong-Petit); for T to zero svib and cv tend to zero and evib and fvib to the zero point energy. With a non-negative DOS svib and cv are not negative.", "quantifier": "all dos, frequencies, temperatures", "why_tests_cant": "continuous", "anchors": ["src/pwtools/thermo.py: HarmonicThermo.evib, fvib, svib, cv"]}
{"id": "C67", "title": "skipfreq drops exactly the small frequencies", "statement": "HarmonicThermo(skipfreq=True) uses exactly the points with freq > eps, keeping freq-dos pairs together; dosarea renormalises to that area.", "quantifier": "all dos", "why_tests_cant": "all inputs", "anchors": ["src/pwtools/thermo.py: HarmonicThermo.__init__"]}
{"id": "C68", "title": "Gibbs grids", "statement": "calc_G: G[T,P,x] = Etot[x]+Fvib[x,T]+P V[x]; calc_H: H[P,x]=Etot[x]+P V[x]; all grids aligned with the inputs; calc_all only adds keys.", "quantifier": "all grids", "why_tests_cant": "all sizes", "anchors": ["src/pwtools/thermo.py: Gibbs.calc_F, calc_H, calc_G"]}
{"id": "C69", "title": "Vinet EOS derivatives", "statement": "EosFit(V,der=1) and der=2 are the exact first and second derivatives of EosFit(V); at V0 the pressure is 0, the energy is E0 and V0*E''(V0)=B0; bulkmod(V)=V*E''(V); pressure(V)=-E'(V).", "quantifier": "all volumes and parameters", "why_tests_cant": "continuous", "anchors": ["src/pwtools/eos.py: _vinet, _vinet_deriv1, _vinet_deriv2, EosFit.pressure, bulkmod"]}
{"id": "C70", "title": "EosFit rejects parabola minima outside the data", "statement": "EosFit raises if the minimum of the fitted parabola is not inside the interval of input volumes.", "quantifier": "all E(V) data", "why_tests_cant": "two sided condition", "anchors": ["src/pwtools/eos.py: EosFit.fit"]}
{"id": "C71", "title": "RBF interpolation and derivatives", "statement": "Rbf with r=0 reproduces the training values exactly at the training points; deriv() is the exact gradient of predict() for gauss, multi and inv_multi.", "quantifier": "all training sets and points", "why_tests_cant": "continuous", "anchors": ["src/pwtools/rbf/core.py: Rbf.fit, predict, deriv, rbf_gauss, rbf_multi, rbf_inv_multi"]}
{"id": "C72", "title": "ibrav2cell cells", "statement": "ibrav2cell gives cells with documented metric: edge lengths/angles/volume for each ibrav, and ibrav=14 equals cc2cell(celldm2cc(celldm)).", "quantifier": "all celldm", "why_tests_cant": "continuous", "anchors": ["src/pwtools/pwscf.py: ibrav2cell", "src/pwtools/crys.py: cc2cell, celldm2cc"]}
{"id": "C73", "title": "read_matdyn_freq restores k-points and frequencies", "statement": "For every well formed matdyn freq file, wrapped at arbitrary line breaks, read_matdyn_freq returns the k-point and frequency tables.", "quantifier": "all nks, nbnd, line wrappings", "why_tests_cant": "all sizes", "anchors": ["src/pwtools/pwscf.py: read_matdyn_freq"]}
{"id": "C74", "title": "write_h5/read_h5 round trip and append safety", "statement": "read_h5 after write_h5 returns the dict with keys normalised to a leading slash; append mode never changes existing keys; mode \"w\" replaces the file.", "quantifier": "all dicts and histories", "why_tests_cant": "histories unbounded", "anchors": ["src/pwtools/io.py: write_h5, read_h5"]}
{"id": "C75", "title": "write_xyz layout", "statement": "write_xyz writes nstep blocks of natoms+2 lines, the block of step i holding symbols and coordinates of step i in order.", "quantifier": "all trajectories", "why_tests_cant": "all sizes", "anchors": ["src/pwtools/io.py: write_xyz", "src/pwtools/pwscf.py: atpos_str_fast"]}
{"id": "C76", "title": "kpoints strings", "statement": "kpoints_str([n1,..,nk]) lists base1=n1,...,basek=nk in order; kpoints_str_pwin_full returns gamma exactly for [1,1,1] with gamma=True or \"gamma\".", "quantifier": "all lists", "why_tests_cant": "all inputs", "anchors": ["src/pwtools/pwscf.py: kpoints_str, kpoints_str_pwin, kpoints_str_pwin_full"]}
{"id": "C77", "title": "DataND/meshgridt/2d helpers keep data aligned", "statement": "num.DataND converts between long (flat) and nd form without losing or permuting values: axes are the sorted unique coordinates and an[i,j,..] is the value at (axes[0][i],axes[1][j],...).", "quantifier": "all grids", "why_tests_cant": "all sizes", "anchors": ["src/pwtools/num.py: DataND"]}
{"id": "C78", "title": "rpdf does not modify its arguments", "statement": "Calling rpdf does not change the caller's trajs and amask lists and therefore calling it again with the same arguments gives the same result.", "quantifier": "all calls", "why_tests_cant": "aliasing", "anchors": ["src/pwtools/crys.py: rpdf"]}
{"id": "C79", "title": "angles are symmetric and in range", "statement": "crys.angles: angle i-j-k centered... equals that of swapped outer atoms, lies in [0,180], degenerate triples are marked with mask_val.", "quantifier": "all coordinates", "why_tests_cant": "continuous", "anchors": ["src/pwtools/crys.py: angles", "src/_ext_src/flib.f90: angles"]}
{"id": "C80", "title": "Nose-Hoover masses have the chain length", "statement": "particle_nhc_masses/barostat_nhc_masses return nnos masses, all positive, the first nf (resp. ndim^2) times the others, nnos<1 is rejected.", "quantifier": "all parameters", "why_tests_cant": "all inputs", "anchors": ["src/pwtools/mttk.py: particle_nhc_masses, barostat_nhc_masses, barostat_mass_w, barostat_mass_wg"]}
{"id": "C81", "title": "sliceput writes exactly the selected entries", "statement": "num.sliceput(a, b, slices) sets exactly the entries selected by the slices to b (a scalar, or an array broadcast as numpy does; then slicetake with the same slices gives b again), keeps all others and the shape; the same call with one slice and axis=<int> does so along that axis.", "quantifier": "all arrays, slices, axes", "why_tests_cant": "all shapes and slices", "anchors": ["src/pwtools/num.py: sliceput"]}
{"id": "C82", "title": "The distance matrix is a metric table", "statement": "crys.distances(struct, pbc): entries are not negative, the diagonal is zero and dists[i,j] == dists[j,i], as the docstring says and as nearest_neighbors relies on.", "quantifier": "all cells, all atom positions, with and without periodic boundary conditions", "why_tests_cant": "symmetry can fail only on a measure-zero set of positions (half a cell vector apart in a skew cell), which random tests never hit", "anchors": ["src/pwtools/crys.py:distances", "src/_ext_src/flib.f90:distsq_frac"]}
{"id": "C83", "title": "Periodic table numbers", "statement": "znucl gives the atomic number of every chemical symbol of the periodic table used by pwtools; symbols which are not in the table raise KeyError; every number has a mass.", "quantifier": "all strings", "why_tests_cant": "The table is checked by eye; a missing row shifts all later numbers and no test looks at them.", "anchors": ["src/pwtools/atomic_data.py: symbols, numbers, pt, masses", "src/pwtools/crys.py: Structure.get_znucl"]}
{"id": "C84", "title": "write_axsf layout", "statement": "write_axsf writes the header and, for each step i, the cell of step i and for every atom one line with its symbol, its coordinates and (if set) its converted forces in step i, in order.", "quantifier": "all trajectories with and without forces", "why_tests_cant": "all sizes and all steps", "anchors": ["src/pwtools/io.py: write_axsf", "src/pwtools/pwscf.py: atpos_str_fast", "src/pwtools/common.py: str_arr"]}
{"id": "C85", "title": "Input file blocks from arrays", "statement": "str_arr, atpos_str and atspec_str write one line per row whose words are the row's entries in order (entries with |x| <= eps as zero if eps > 0); lists of different length are refused. bool2str writes a bool as one word which Fortran reads as the same value.", "quantifier": "all arrays, symbols, delimiters and eps", "why_tests_cant": "all sizes and values", "anchors": ["src/pwtools/common.py: str_arr, fix_eps", "src/pwtools/pwscf.py: atpos_str, atspec_str, bool2str"]}
{"id": "C86", "title": "The units of a parser do not depend on parsers created before", "statement": "The conversion factors with which a new parser object turns the numbers of the file into eV, Angstrom, fs and GPa are the documented ones of its file format (or those the user passes), no matter which other parser objects were created before in the same program, in which order and with which user units.", "quantifier": "all histories of parser creations (kinds and user units), all parser kinds, all quantities a parser returns, all values of the physical constants", "why_tests_cant": "The class level dictionaries are shared and changed by constructors; each unit test creates few parsers in one order.", "anchors": ["src/pwtools/parse.py: StructureFileParser.__init__, default_units, PwMDOutputFile.__init__, CpmdMDOutputFile.__init__, Cp2kMDOutputFile.__init__, LammpsTextMDOutputFile.__init__", "src/pwtools/crys.py: UnitsHandler"]}
{"id": "C87", "title": "pw.x MD parser returns values which belong together", "statement": "For the output file of a pw.x MD or relax run, consisting of any sequence of energy lines, position, cell, stress and force blocks and other text, the parser returns one coordinate array per position block, and the i-th energy, forces and stress returned are those computed for the i-th structure returned. A file cut inside a position block is refused.", "quantifier": "all files which are sequences of well-formed blocks and other text, all numbers of atoms and steps, all force verbosity levels, all points at which the run was stopped between blocks or inside a position block", "why_tests_cant": "The alignment depends on where the run stopped and on what else was printed; example files show a few endings only.", "anchors": ["src/pwtools/parse.py: PwMDOutputFile._get_coords, _match_nstep, get_etot, get_forces, get_stress, PwSCFOutputFile._get_stress_raw, _get_etot_raw, _get_forces_raw, get_natoms, traj_from_txt, arr1d_from_txt, arr2d_from_txt"]}
{"id": "C88", "title": "pw.x MD parser honours the units in block headers", "statement": "Coordinates and cells are converted to Bohr according to the unit in the header of the position and cell blocks (bohr, angstrom, alat, (alat=x), none); fractional coordinates are returned exactly if the unit is crystal.", "quantifier": "all files as in C87, all spellings of the header (brackets, braces, blanks), all values of alat and the constants", "why_tests_cant": "Every combination of header style and unit needs its own output file in a test.", "anchors": ["src/pwtools/parse.py: PwMDOutputFile._get_block_header_unit, get_coords, get_coords_frac, get_cell"]}
{"id": "C89", "title": "LAMMPS output: arrays come from the named columns, for every frame and every run", "statement": "For a LAMMPS dump file with any number of complete frames, the coordinates, fractional coordinates, forces and velocities returned by the parser are, frame by frame and atom by atom, the numbers of the columns with the documented names, whatever the position of these columns; a missing column gives None. The cell is that of the simulation box of each frame, triclinic or orthogonal. A dump file whose last frame is incomplete is never turned into an array. Energies, temperature, volume, lattice constants and stress hold one entry per row printed by any of the run commands in the log file, each taken from the column named in the header of that run.", "quantifier": "all dump files (any number of frames, atoms and columns), all crash points inside a frame, all log files with any number of runs", "why_tests_cant": "The number of frames, the column order, the text around the tables and the crash point are unbounded; tests use a few recorded files.", "anchors": ["src/pwtools/parse.py LammpsTextMDOutputFile (_get_thermo_dct, _get_dump_dct, _lmp_dump2arr3d, get_cell, get_stress, get_symbols, ...)"]}
{"id": "C90", "title": "CP2K output: arrays come from the extra files, one entry per step, also for killed and relaxation runs", "statement": "For CP2K MD output the energies, temperature, stress, cell and volume are the documented columns of the ener, stress and cell files, one entry per row; coordinates, forces and velocities are the numbers in the xyz files, frame by frame and atom by atom, and the symbols those of the first frame. If the run was killed inside a frame, no array with made-up entries is returned. For a cell relaxation the cell array has one entry per frame (the last cell belongs to the final SCF, too); any other number of frames is refused.", "quantifier": "all tables (any number of rows and comment lines), all xyz files (any number of frames and atoms), all lines after which the run may be killed", "why_tests_cant": "The number of steps and atoms and the crash point are unbounded; tests use a few recorded runs.", "anchors": ["src/pwtools/parse.py Cp2kMDOutputFile (_cp2k_repack_arr, _cp2k_xyz2arr, get_symbols, ...), Cp2kRelaxOutputFile"]}
{"id": "C91", "title": "CPMD output: arrays come from the extra files, for every run type and every history of restarts", "statement": "For CPMD MD output the energies and the temperature are the columns of the file ENERGIES in the order documented for the kind of the run (Parrinello-Rahman, CP, BO/Lanczos), quantities without a column are None, the conserved energy is EHAM or else EKS; files with any other number of columns are refused. Coordinates, velocities and forces are those of TRAJECTORY or FTRAJECTORY, step by step and atom by atom, wherever restart marks (<<<<<< NEW DATA) occur; a file with an incomplete step is refused. Cell and stress are the 3x3 blocks of the files CELL and STRESS in order; a CELL file with other text between the blocks is refused and not misread. The number of atoms is the number of lines with positions and velocities in GEOMETRY.", "quantifier": "all files (any number of rows, atoms, steps, restart marks), all run types, all lines after which the run may be killed", "why_tests_cant": "The number of steps, atoms and restarts and the crash point are unbounded; tests use a few recorded runs.", "anchors": ["src/pwtools/parse.py CpmdMDOutputFile (_get_energies_file, get_*, _get_coords_vel_forces, get_cell, get_stress), CpmdSCFOutputFile.get_natoms"]}
{"id": "C92", "title": "Random structures respect their ranges and keep atoms apart", "statement": "A structure returned by RandomStructure.get_random_struct has the requested symbols; its cell lengths, its angles and its volume lie in the requested ranges; the atoms have fractional coordinates in [0,1); and no two atoms, including their periodic images, are closer than close_scale times the sum of their covalent radii. With fail=False the same holds. RandomStructureFail is the only exception, and it is raised only after all cell_maxtry cells were outside the volume range or all atom_maxtry positions of one atom were too close.", "quantifier": "all symbol lists, scale factors, ranges and try counts, all sequences of random numbers", "why_tests_cant": "The generator draws from a continuous distribution; a test sees a few draws, the property is about every possible sequence of draws.", "anchors": ["src/pwtools/random.py: RandomStructure, random_struct"]}
{"id": "C93", "title": "Derived attributes of structures and trajectories are complete and fit together", "statement": "Building a Structure or Trajectory (or calling set_all) never changes an attribute the user gave, and sets every attribute that follows from the given ones: cell and lattice constants from each other, fractional and cartesian coordinates from each other through the cell, volume from the cell, pressure from the stress, number of atoms, and for trajectories times, velocities (central differences), masses, kinetic energies and temperatures. From input that does not contradict itself, all attributes of the result agree with each other; calling set_all again changes nothing; dropping one of two equivalent attributes and calling set_all gives the same object. Each step of a trajectory has what a structure built from that step would have.", "quantifier": "all combinations of given attributes, all cells, coordinates, lattice constants, any number of atoms and steps", "why_tests_cant": "there are hundreds of combinations of given attributes, each with its own order of evaluation, and infinitely many cells and coordinates; tests build a handful of objects", "anchors": ["src/pwtools/crys.py: Structure.set_all, Trajectory.set_all, get_coords, get_coords_frac, get_volume, get_cell, get_cryst_const, get_pressure, get_time, get_nstep, get_natoms, get_velocity, get_ekin, get_temperature, get_mass, _extend", "src/pwtools/base.py: FlexibleGetters.try_set_attr"]}
{"id": "C94", "title": "Phonon frequencies and mode vectors are read completely and in order", "statement": "read_matdyn_modes(file, natoms) returns for every complete file of matdyn.x, whatever the number of q-points and atoms, exactly the q-points, the frequencies in cm^-1 (not those in THz) and the complex vectors of the file, indexed [q-point, mode, atom, x/y/z]; a file with missing modes or vectors and a wrong number of atoms raise an error. read_dyn does the same for the last q-point of a dynamical matrix file, and read_all_dyn gives for the files of all q-points the same arrays as read_matdyn_modes. read_dynmat returns the vectors of the AXSF file and the frequencies of the text output in the same order of modes; read_dynmat_ir_raman returns the table, or the requested columns, with None for a missing one.", "quantifier": "all files of the given form: any number of q-points, atoms, any text around the data, any number texts", "why_tests_cant": "tests read one small file of each kind; a mistake in one of the patterns shows up only for other layouts, e.g. another number of atoms, or for truncated files", "anchors": ["src/pwtools/pwscf.py: read_matdyn_modes, read_dyn, read_all_dyn, read_dynmat, read_dynmat_ir_raman", "src/pwtools/parse.py: arr2d_from_txt"]}
{"id": "C95", "title": "Distance matrices of a trajectory do not depend on the thread schedule", "statement": "distances_traj(traj, pbc) gives for every time step and every pair of atoms the (minimum image) distance in the cell of that step, whatever the number of threads, the distribution of the steps over the threads and the interleaving of their instructions, and whatever the work arrays contain at the start.", "quantifier": "all schedules of any number of threads, all trajectories, with and without periodic boundaries", "why_tests_cant": "a data race shows up only for some interleavings; a test run samples one schedule on one machine", "anchors": ["src/pwtools/crys.py: distances_traj", "src/_ext_src/flib.f90: distances_traj, distsq_frac"]}
{"id": "C96", "title": "RMSD against a reference step is exact and does not depend on the frame of reference", "statement": "rmsd(traj, ref_idx) has one number per step: the square root of the sum of the squared displacements of all atoms against the reference step, divided by the number of atoms. It is zero for exactly the steps which are equal to the reference step; shifting, rotating or reflecting the whole trajectory does not change it; ref_idx counts from the end if negative and raises outside of the trajectory.", "quantifier": "all trajectories, all reference indices, all motions which keep distances", "why_tests_cant": "tests compare a few random trajectories with another implementation", "anchors": ["src/pwtools/crys.py: rmsd", "src/pwtools/num.py: rms3d"]}
{"id": "C97", "title": "The structure of neighbours contains the neighbours and the central atom, in order", "statement": "nearest_neighbors_struct(struct, idx=...) contains exactly the atoms which nearest_neighbors returns for the same arguments and the central atom, with their coordinates and symbols, in the order of the structure and in its cell.", "quantifier": "all structures, all neighbour lists, all indices of the central atom (also counted from the end)", "why_tests_cant": "a wrong mask shows up only for certain positions of the central atom", "anchors": ["src/pwtools/crys.py: nearest_neighbors_struct", "src/pwtools/num.py: match_mask"]}
{"id": "C98", "title": "Calculators do not influence each other", "statement": "The settings of a new Pwscf or Lammps calculator are the documented defaults with the arguments of its own call; they do not depend on which calculators were created before in the same process, with which arguments, and whether their creation failed. Creating a calculator does not change the settings of existing ones.", "quantifier": "all histories of calculator creations, all argument sets", "why_tests_cant": "the effect of a changed default shows up only for certain histories; unit tests start from a fresh process", "anchors": ["src/pwtools/calculators.py: CalculatorBase.init_params_from_input, Pwscf.__init__, Lammps.__init__"]}
{"id": "C99", "title": "Input files of calculators contain the right pseudopotentials and values", "statement": "The pw.x input written by the Pwscf calculator has for each species of the structure its own pseudopotential (pp as string: the symbol followed by the string; pp as list: the file of that species), every placeholder of the template is replaced by its value and the rest of the template stays as it is, and the stress passed to ASE has the Voigt order xx, yy, zz, yz, xz, xy with the opposite sign.", "quantifier": "all symbol lists, pp arguments, templates, settings and stress tensors", "why_tests_cant": "whether a file name is attributed to the right species depends on the whole list of names and symbols; tests use one or two species", "anchors": ["src/pwtools/calculators.py: Pwscf.write_input, fill_infile_templ, stress_pwtools2ase"]}
{"id": "C100", "title": "Cutting output files at a step keeps exactly the earlier steps", "statement": "cut-cp2k.sh and cut-cpmd.sh with a given step leave in every output file exactly the head of the file and the complete records of all steps before the given one, also when the number of the step occurs inside of other numbers.", "quantifier": "all files with ascending step numbers, any record contents, all steps to cut at (in the file or not)", "why_tests_cant": "regular expressions without anchors match other numbers and other lines; a test file has few steps", "anchors": ["bin/cut-cp2k.sh: sed expressions", "bin/cut-cpmd.sh: sed expressions"]}
{"id": "C101", "title": "LAMMPS input describes the same structure, and results are those of the structure", "statement": "The data written by write_lammps (lammps.struct_str) describes the same structure: the same cell parameters, all distances between atoms including periodic images, the atoms in the same order with the type and mass of their species. The energy, forces and stress which the Lammps calculator returns are those of the structure as given by the user.", "quantifier": "all cells (any orientation), all structures, all interaction laws which depend on distances", "why_tests_cant": "LAMMPS accepts only triangular cells, so the structure is rotated; a test with a triangular cell does not see what happens to vectors", "anchors": ["src/pwtools/lammps.py: struct_str", "src/pwtools/calculators.py: Lammps.write_input, Lammps.read_results", "src/pwtools/io.py: write_lammps"]}
{"id": "C102", "title": "Convergence tables list the differences in order", "statement": "conv_table lists for every point the difference of its value to the next one (mode next) or to the last one (mode last), for several series at once, with absolute values and the original values on request, in the order of the points; more points than values is an error and unknown modes are rejected.", "quantifier": "all numbers of points and series, all values, all options", "why_tests_cant": "an off-by-one pairs a difference with the wrong point, for every length", "anchors": ["src/pwtools/batch.py: conv_table"]}
{"id": "C103", "title": "CIF files are read in order and round trip", "statement": "The CIF reader returns lattice constants, fractional coordinates and symbols in the order of the file, with uncertainties in parentheses and digits of labels removed; a structure written by write_cif is read back with the same lattice constants, coordinates and symbols.", "quantifier": "all structures, all numbers with or without uncertainties, all labels", "why_tests_cant": "texts of files vary; a test has a few files", "anchors": ["src/pwtools/parse.py: CifFile", "src/pwtools/io.py: write_cif"]}
{"id": "C104", "title": "fit_opt uses the settings of the caller, every time", "statement": "fit_opt passes the start values or bounds and all other optimizer settings of the caller to the optimizer, or defaults if they are not given, and returns an interpolator with the found parameters and the given constant ones. Calling it again with the same arguments uses the same settings: the arguments of the caller are not changed.", "quantifier": "all histories of calls, all methods and settings", "why_tests_cant": "the change of an argument shows up in a later call only; tests build their arguments anew", "anchors": ["src/pwtools/rbf/hyperopt.py: fit_opt"]}
{"id": "C105", "title": "Copies share nothing with the original; compress leaves the original alone", "statement": "copy() of a structure or trajectory has the same attributes; whatever is changed in place in the copy is not seen in the original and vice versa. compress(traj) returns an object with exactly the attributes in forget removed and float arrays converted, and leaves traj unchanged unless copy=False.", "quantifier": "all objects, also with attributes which share data, all sequences of in-place changes, all forget lists", "why_tests_cant": "sharing shows up only for certain sequences of changes", "anchors": ["src/pwtools/crys.py: Structure.copy, Structure.compress, compress"]}
{"id": "C106", "title": "Comparison of structures and conversion to and from spglib", "statement": "is_same_struct is true exactly if symbols, volume, cell parameters, fractional coordinates (up to tolerances) and space group agree, never raises for structures of different sizes, does not depend on the order of its arguments, and is true for a structure and itself. struct2spglib and spglib2struct are inverse to each other. spglib_get_primitive returns None exactly if the primitive cell is the given structure. spglib_get_spacegroup returns number and symbol.", "quantifier": "all structures, all results of spglib", "why_tests_cant": "tests have a few structures; the edge of a tolerance is never hit", "anchors": ["src/pwtools/symmetry.py: is_same_struct, spglib2struct, struct2spglib, spglib_get_primitive, spglib_get_spacegroup"]}
{"id": "C107", "title": "Files opened by reading functions are closed", "statement": "A function decorated with open_and_close which is called with a file name returns what the function returns for the open file, and the file is closed afterwards also if the function raises; a file object of the caller is neither opened nor closed.", "quantifier": "all file names and file objects, all functions, normal and exceptional exits", "why_tests_cant": "a leaked file handle has no effect on the result of a test", "anchors": ["src/pwtools/decorators.py: open_and_close", "src/pwtools/arrayio.py: readtxt"]}
{"id": "C108", "title": "coord_trans works along any axis of arrays of any rank", "statement": "coord_trans(coords, old, new, axis) transforms the vectors along the given axis (counted from the end if negative), each on its own, to the coordinates of the same points in the new basis, and leaves the order of everything else as it is; vectors of the wrong length raise. coord_trans3d does this for every time step with the bases of that step and returns an array with the axes of the input.", "quantifier": "arrays of any rank and shape, all axes and time axes, all number types", "why_tests_cant": "axis handling is a permutation problem: tests try one or two ranks", "anchors": ["src/pwtools/crys.py: coord_trans, coord_trans3d, _trans"]}
{"id": "C109", "title": "Roots, minima and inverse of 1d fits", "statement": "For Spline and PolyFit1D: is_mono says whether the curve is monotonic; get_root returns a root in the bracket and raises if there is no change of sign; get_min (get_max) returns the place of the smallest (largest) value in the bracket; invsplev is the inverse of a strictly monotonic curve and rejects values outside of the range of the data; PolyFit1D accepts points of shape (npoints,) and (npoints,1) and returns one value per point.", "quantifier": "all curves, brackets, data and shapes of points; any root finder with the documented behaviour", "why_tests_cant": "continuous domain; curves which are flat or curved the other way are not in the tests", "anchors": ["src/pwtools/num.py: Fit1D, Spline.invsplev, PolyFit1D"]}
{"id": "C110", "title": "CP2K single point outputs", "statement": "Reading a CP2K single point output gives number of atoms, symbols and forces of the table of atomic forces in the order of the file, the total energy printed after the last colon of the energy line, and the 3x3 stress tensor in GPa without the axis names; a quantity which is not in the file is None.", "quantifier": "every output file of the documented layout: any text before, between and after the tables, any number of atoms, any words", "why_tests_cant": "the text is processed by sed and grep pipelines whose ranges depend on the whole file; tests use a few stored files", "anchors": ["src/pwtools/parse.py:Cp2kSCFOutputFile"]}
{"id": "C111", "title": "CPMD single point outputs", "statement": "Cell, fractional coordinates and symbols from GEOMETRY.scale and stress, energy and forces from the CPMD output are those of the last block of the file with the key, in the order of the file, also for one atom.", "quantifier": "every output: any text and any number of earlier blocks before the last one, any text after it, any number of atoms", "why_tests_cant": "stored test outputs contain one block and a fixed number of atoms", "anchors": ["src/pwtools/parse.py:CpmdSCFOutputFile"]}
{"id": "C112", "title": "Convergence flags", "statement": "scf_converged is True exactly if the self-consistency cycle of the output converged; not for outputs which end before.", "quantifier": "every output, including truncated ones", "why_tests_cant": "a crash can truncate an output at any line", "anchors": ["src/pwtools/parse.py:PwSCFOutputFile.get_scf_converged", "src/pwtools/parse.py:CpmdSCFOutputFile.get_scf_converged"]}
{"id": "C113", "title": "Data2D keeps all forms of a 2d grid and its values consistent", "statement": "However a 2d grid is given to Data2D (axes x, y; meshes X, Y; double loop arrays xx, yy; list of points XY), and values as Z or zz or not at all, the object has all the forms, and they describe the same grid and values. update() replaces what it is given and recomputes the rest. copy() has the same data.", "quantifier": "all grids without repeated points, all values, all forms of input, all histories of updates", "why_tests_cant": "tests use one grid and one order of updates", "anchors": ["src/pwtools/mpl.py: Data2D.__init__, Data2D.update, Data2D.copy", "src/pwtools/num.py: meshgridt"]}
{"id": "C114", "title": "Fit of an equation of state with an external program", "statement": "After fit() the object has the E(V) and P(V) curves of the program for its data, the bulk modulus -V dP/dV (or V d2E/dV2) of these curves, and splines through them; get_min() gives the volume of zero pressure (or of minimal energy) with energy, pressure and bulk modulus there, in the documented order. This also holds if data or method are changed and fit() is called again. Volumes which are not in order are rejected. ElkEOSFit converts units and normalises to the cell, not the atom.", "quantifier": "all data, both methods, all curves the program may give, all histories of calls", "why_tests_cant": "the program is not there in tests; histories of calls are not tested", "anchors": ["src/pwtools/eos.py: ExternEOS.__init__, ExternEOS.fit, ExternEOS.calc_bv, ExternEOS.get_min, ElkEOSFit._fit"]}
{"id": "C115", "title": "file_template_replace does not lose the file", "statement": "After file_template_replace(fn, txt, bak) the file has the replaced text, fn+bak has the old text, and no other file has changed; if it raises nothing has changed; and wherever the process is killed in between, the old text is still complete in fn or fn+bak.", "quantifier": "all file contents, dictionaries, suffixes, file systems and crash points", "why_tests_cant": "crash points", "anchors": ["src/pwtools/common.py: file_template_replace, template_replace, file_write"]}
{"id": "C116", "title": "Cross validation errors of Rbf do not use test data for training", "statement": "FitError.cv gives one error for each split: the error on the test points of the model built from the training points only, whatever the test values are; err_cv is their mean, err_direct the error on the training set; the object calls the one which was asked for. params is [p] or [p,r], anything else or a parameter given twice raises. params=[p] uses r=None (least squares) as documented.", "quantifier": "all data, splits, parameters and models", "why_tests_cant": "leaks of test data into training only show as errors which are too small", "anchors": ["src/pwtools/rbf/hyperopt.py: FitError"]}
{"id": "C117", "title": "The header of array text files survives writing and reading", "statement": "The ini-style header which writetxt puts into a file (shape and axis of the array) is read back by readtxt, for every shape, axis and data; the same for any config with names and values an ini file can hold. Headers longer than the lines which are read are refused when writing and when reading.", "quantifier": "all shapes, axes, configs, comment signs, numbers of lines and data lines which are no comments", "why_tests_cant": "one header is tested", "anchors": ["src/pwtools/arrayio.py: _write_header_config, _read_header_config, writetxt, readtxt"]}
{"id": "C118", "title": "Frames averaged by vmd_measure_gofr", "statement": "vmd_measure_gofr(traj, first, last, step) averages the radial distribution over exactly the steps first, first+step, ... up to and including last (-1 means the last step), each step with its own cell, no matter if slicefirst is True or False; a box which is not orthogonal raises.", "quantifier": "all trajectories, all first, last, step within the trajectory, both values of slicefirst, all radii", "why_tests_cant": "The frame selection is done either by numpy slicing (exclusive end) or by VMD (inclusive end) and must be the same for all numbers; tests need VMD and use a few trajectories.", "anchors": ["src/pwtools/crys.py: vmd_measure_gofr", "src/pwtools/crys.py: call_vmd_measure_gofr", "src/pwtools/crys.py: rmax_smith"]}
{"id": "C119", "title": "Header of a pw.x output", "statement": "Reading a pw.x output gives the start structure which the file describes: lattice parameter, cell (times the lattice parameter), atoms (symbols and coordinates times the lattice parameter) and number of k-points are those of the first places which announce them, whatever text stands before and after; use_alat=False gives the numbers as printed; a file without header gives None for the cell and an exception for the atoms.", "quantifier": "all output files whose announced lines have the documented format, with arbitrary other text, any number of atoms and any numbers", "why_tests_cant": "The parsers are pipelines of grep, sed and awk with greedy expressions; test files are a few outputs of some versions.", "anchors": ["src/pwtools/parse.py: PwSCFOutputFile.get_alat", "src/pwtools/parse.py: PwSCFOutputFile._get_cell_2d", "src/pwtools/parse.py: PwSCFOutputFile.get_cell", "src/pwtools/parse.py: PwSCFOutputFile._get_coords_symbols", "src/pwtools/parse.py: PwSCFOutputFile.get_coords", "src/pwtools/parse.py: PwSCFOutputFile.get_symbols", "src/pwtools/parse.py: PwSCFOutputFile.get_nkpoints"]}
{"id": "C120", "title": "Tables of MD outputs of pw.x", "statement": "Per-step quantities of an MD output belong to their steps: the unit factor of every cell is the one printed with this cell, also in files made of several runs; kinetic energy, temperature and constant of motion of a vc-md run are those of the lines which print them, in order, None without such lines; entry i of the numbers of SCF iterations belongs to step i.", "quantifier": "all output files made of lines of the documented formats and arbitrary other text, any number of steps and runs", "why_tests_cant": "Which lines belong together depends on the whole file; restarted and aborted runs have any combination of blocks.", "anchors": ["src/pwtools/parse.py: PwMDOutputFile._get_cell_3d_factors", "src/pwtools/parse.py: PwVCMDOutputFile._get_datadct", "src/pwtools/parse.py: PwVCMDOutputFile.get_ekin", "src/pwtools/parse.py: PwSCFOutputFile._get_nstep_scf_raw", "src/pwtools/parse.py: PwMDOutputFile.get_nstep_scf"]}
{"id": "C121", "title": "Debye function and thermal expansion", "statement": "debye_func(x, nstep, zero) approximates 3 * int_0^1 t^3/(exp(t x) - 1) dt within an explicit error which vanishes with nstep -> infinity and zero -> 0, for every x > 0; expansion() with the Debye or Einstein function has the length x0 at low and the slope x0*alpha at high temperature.", "quantifier": "all x > 0, all numbers of integration points >= 2, all 0 < zero < 1, all temperatures, alpha, theta, x0", "why_tests_cant": "A statement on the error for all x and on limits; tests compare a few numbers.", "anchors": ["src/pwtools/thermo.py: debye_func", "src/pwtools/thermo.py: einstein_func", "src/pwtools/thermo.py: expansion"]}
{"id": "C122", "title": "read_pw_scf returns the structure of the file in standard units", "statement": "io.read_pw_scf(file) of a pw.x output returns a Structure whose symbols and natoms are those of the file, whose coords and cell are the numbers in the header times alat times Bohr/Angstrom, whose etot is the first total energy in eV, whose forces are the first natoms lines of the first block of forces in eV/Angstrom and whose stress is the first stress tensor in GPa; factors given with units= replace the default ones, earlier use of other parsers has no influence, and use_alat=False with units={\"length\": alat*Bohr/Ang} gives the same coords and cell.", "quantifier": "all output files with a header (number of atoms, lattice parameter, axes, sites) and any blocks of energies, forces and stresses between other text; all user units; all histories of parser creations", "why_tests_cant": "The parser tests compare single attributes of a few stored files; the chain of regular expressions, slicing, alat and unit factors has to be right for every file and any state of the shared default_units dictionaries.", "anchors": ["src/pwtools/io.py: read_pw_scf", "src/pwtools/parse.py: PwSCFOutputFile, StructureFileParser.get_cont", "src/pwtools/base.py: raw_slice_get", "src/pwtools/crys.py: UnitsHandler"]}
{"id": "C123", "title": "Forces, atoms, time step and run type in CP2K output files", "statement": "For a CP2K MD output without forces file the parser returns the forces of all tables \"ATOMIC FORCES in\" of the output file, one array per table in order, each with all natoms rows, wherever blank lines stand, and None if there is no table; natoms and timestep are those of the first line which gives them (None without one), and the run type is the word at the end of the line GLOBAL| Run type.", "quantifier": "all output files: any number of tables, of atoms, any text and blank lines between", "why_tests_cant": "The tests parse a few stored outputs; the pipeline sed | grep -A | egrep -v | tr | cut has to pick exactly the rows of the tables for every number of atoms and every surrounding text.", "anchors": ["src/pwtools/parse.py: Cp2kMDOutputFile._get_forces_from_outfile, get_natoms, get_timestep, Cp2kSCFOutputFile._get_run_type"]}
{"id": "C124", "title": "sgroup reads what write_wien_sgroup writes", "statement": "Reading the text of io.wien_sgroup_input(struct, lat_symbol) by the rules of sgroup (comments from / to the end of the line, blank lines allowed) gives the lattice symbol, the six cell constants and every atom with its fractional coordinates and its name, in order, and nothing else.", "quantifier": "all structures (any number of atoms), all lattice symbols, all names without / and white space", "why_tests_cant": "There is no reader in the package and sgroup is not part of it, so a test can only compare text with text.", "anchors": ["src/pwtools/io.py: wien_sgroup_input, write_wien_sgroup"]}
{"id": "C125", "title": "Temperature zero, zero frequencies and NaNs in HarmonicThermo", "statement": "For temperatures above zero and positive frequencies no NaN or infinity appears and the results are the harmonic formulas, whatever fixnan is; points with zero frequency and zero DOS contribute nothing with fixnan=True. At temperature zero the results are the limits: internal and free energy are the zero point energy, entropy and heat capacity are zero. E = F + T S holds also when NaNs were replaced.", "quantifier": "all DOS curves, constants and temperatures >= 0", "why_tests_cant": "A test at T=0 only shows that some entries are NaN; that a NaN appears for every DOS, and nowhere else, is a statement on all inputs.", "anchors": ["src/pwtools/thermo.py: HarmonicThermo._integrate, vibrational_internal_energy, isochoric_heat_capacity, vibrational_free_energy, vibrational_entropy"]}
{"id": "C126", "title": "fft_1d_loop is the discrete Fourier transform along the requested axis", "statement": "signal.fft_1d_loop(arr, axis) returns an array of the same shape whose value at every index is the discrete Fourier transform of the line of arr through that index along axis, as numpy.fft.fft(arr, axis=axis) does; negative axes count from the end.", "quantifier": "every array of any number of dimensions and any shape, every axis, negative or not, every content of the uninitialised output array", "why_tests_cant": "The result depends on every line of an n-dimensional array being visited exactly once; a test fixes one shape and the axes 0, 1 and -1, for which the treatment of negative axes cannot be seen.", "anchors": ["src/pwtools/signal.py: fft_1d_loop"]}
{"id": "C127", "title": "read_pw_md returns the trajectory in a pw.x output", "statement": "io.read_pw_md of the output of an MD or relaxation run returns a Trajectory with one step for each ATOMIC_POSITIONS block; positions, cells, energies, forces and stress tensors with the same index belong to the same structure, in eV, Angstrom, GPa and fs (or with the factors of the user) whatever the unit of positions and cells in the file; kinetic energies, temperatures and the time step are those printed. io.read_pw_scf of the same file returns the structure which comes before.", "quantifier": "every output file of a run: any number of atoms and steps, any text between the blocks, every unit (bohr, alat, angstrom, crystal; fixed cell or cell blocks with and without factors), user units, use_alat, every history of parsers created before", "why_tests_cant": "A reference file fixes one layout and one unit; alignment and units for all files follow only from an argument about every line the shell pipelines can match.", "anchors": ["src/pwtools/parse.py: PwMDOutputFile, TrajectoryFileParser.get_traj", "src/pwtools/io.py: read_pw_md", "src/pwtools/crys.py: Trajectory._extend"]}
{"id": "C128", "title": "pbc_wrap on structures and trajectories which share memory", "statement": "Structures and trajectories are created, indexed, sliced, copied and passed to pbc_wrap in any order. After pbc_wrap the result has fractional coordinates in [0,1) in the requested directions, moved by whole cell vectors, and cartesian coordinates which fit; all other objects show what they showed before, so that in every object coords is coords_frac times cell. If pbc_wrap fails, the object is as before.", "quantifier": "every history of constructors, integer and slice indexing, copies and pbc_wrap calls with copy=True or copy=False, any mask, numbers of steps and atoms, cells and coordinates", "why_tests_cant": "Whether another object is damaged depends on which objects share memory, that is on the whole history; tests wrap one fresh object.", "anchors": ["src/pwtools/crys.py: pbc_wrap, pbc_wrap_coords, Trajectory.__getitem__, Structure.copy, Structure.get_coords, Structure.get_coords_frac"]}
{"id": "C129", "title": "read_cp2k_md and read_cp2k_relax return what is in the files of the run", "statement": "For the files of a CP2K molecular dynamics run, io.read_cp2k_md returns a Trajectory with the positions, velocities, forces, cells, stress tensors, energies and temperatures of the files which exist, in order, in Angstrom, fs, eV, eV/Angstrom and GPa (or times the factors the user gives), whichever parsers were used before; if all files are written in every step, index i is the same step in all of them. io.read_cp2k_relax does the same with the energies from the xyz file; after an optimisation of the cell the last frame, which has no cell in the table, gets the last cell, and any other number of cells is refused.", "quantifier": "all sets of files, numbers of atoms and steps, values, unit factors, histories of parsers created before", "why_tests_cant": "A test reads one run; the way from text lines over eleven getters to scaled arrays has to be right for all runs, combinations of files and histories of class level unit dictionaries.", "anchors": ["src/pwtools/io.py: read_cp2k_md, read_cp2k_relax, ReadFactory", "src/pwtools/parse.py: Cp2kMDOutputFile, Cp2kRelaxOutputFile, StructureFileParser.get_cont", "src/pwtools/crys.py: Structure.set_all, UnitsHandler._apply_units_raw"]}
{"id": "C130", "title": "read_lammps_md_txt returns what is in the files", "statement": "For a LAMMPS run with a log file and a custom text dump (any columns in any order, triclinic boxes) io.read_lammps_md_txt returns a Trajectory in which the coordinates, fractional coordinates, forces and velocities of frame k, atom i are the named columns of that row of the dump, the cell is that of the box of frame k, energies, temperature, stress tensor, volume and lattice constants of row k of the log are the named columns, symbols come from the symbols file, else from the type column with order, else with the dump_modify line, all times the unit factors of the user or of LAMMPS metal units (ps to fs, bar to GPa), whichever parsers have been used before; entry k of each attribute belongs to step k; a dump which ends in the middle of a frame raises.", "quantifier": "all dump and log files of the format, numbers of atoms, frames and runs, orders of columns, values, unit factors, histories of parsers created before, points where the run was killed", "why_tests_cant": "A test reads one run; the way from text lines over fourteen getters to scaled arrays has to be right for all runs, column orders and histories of class level unit dictionaries.", "anchors": ["src/pwtools/io.py: read_lammps_md_txt, ReadFactory", "src/pwtools/parse.py: LammpsTextMDOutputFile, StructureFileParser.get_cont", "src/pwtools/crys.py: Structure.set_all, UnitsHandler._apply_units_raw"]}
{"id": "C131", "title": "read_cpmd_md returns what is in the files", "statement": "For a CPMD molecular dynamics run io.read_cpmd_md returns a Trajectory in which coordinates, velocities and forces of step k are those of the block k of FTRAJECTORY, or else (without forces) of TRAJECTORY, restart marks skipped; the cell of step k is block k of CELL, or without this file the cell of GEOMETRY.scale for every step; stress tensors are those of STRESS; energies and temperature are the named columns of row k of ENERGIES for all three column formats; symbols are those of GEOMETRY.scale; the time step is that of the output file; all times the unit factors of the user or of atomic units, whichever parsers have been used before. A file of a trajectory which ends in the middle of a step raises.", "quantifier": "all files of the formats, numbers of atoms and steps, places of restart marks, subsets of files which exist, values, unit factors, histories of parsers created before", "why_tests_cant": "A test reads one run; the way from eight text files over fifteen getters to scaled arrays has to be right for all runs, subsets of files and histories of class level unit dictionaries.", "anchors": ["src/pwtools/io.py: read_cpmd_md, ReadFactory", "src/pwtools/parse.py: CpmdMDOutputFile, CpmdSCFOutputFile._get_scale_file, StructureFileParser.get_cont", "src/pwtools/crys.py: Structure.set_all, UnitsHandler._apply_units_raw, Structure._extend_cell"]}
{"id": "C132", "title": "read_pw_vcmd returns what is in the file", "statement": "For the output of a variable cell MD of pw.x io.read_pw_vcmd returns a Trajectory with positions, cell, total energy, forces and stress tensor of each structure after the first one as io.read_pw_md does, kinetic energy and temperature of step k from the k-th line Ekin = ... T = ... Etot = ..., symbols and time step of the header, all times the unit factors of the user or of Rydberg units, whichever parsers have been used before; entry k of each attribute belongs to structure k.", "quantifier": "all output files of the format, numbers of atoms and structures, units of positions and cells, values, unit factors, histories of parsers created before", "why_tests_cant": "A test reads one run; overriding two getters of the parser for fixed cells has to keep the composition of all getters, units and cell handling right for all runs.", "anchors": ["src/pwtools/io.py: read_pw_vcmd", "src/pwtools/parse.py: PwVCMDOutputFile, PwMDOutputFile", "src/pwtools/crys.py: Structure.set_all, UnitsHandler._apply_units_raw"]}
{"id": "C133", "title": "read_cpmd_scf returns what is in the files", "statement": "For a CPMD single point calculation io.read_cpmd_scf returns a Structure with the last cell of GEOMETRY.scale, symbols, fractional coordinates and positions (fractional coordinates times cell) of the last block of atoms in it, and the last total energy, stress tensor and forces of the output file, as far as they are printed, all times the unit factors of the user or of atomic units, whichever parsers have been used before.", "quantifier": "all files of the formats, numbers of atoms, numbers of energies, tables and tensors printed before the last one, values, unit factors, histories of parsers created before", "why_tests_cant": "A test reads one calculation; the way from three text files over ten getters to scaled arrays has to be right for all of them and for all histories of class level unit dictionaries.", "anchors": ["src/pwtools/io.py: read_cpmd_scf", "src/pwtools/parse.py: CpmdSCFOutputFile, StructureFileParser.get_cont", "src/pwtools/crys.py: Structure.get_coords, UnitsHandler._apply_units_raw"]}
{"id": "C134", "title": "read_cp2k_scf returns what is in the output", "statement": "For a CP2K single point calculation io.read_cp2k_scf returns a Structure with symbols and forces of the table of atomic forces, in order, the total energy and the stress tensor, in eV, eV/Angstrom and GPa or times the factors of the user, whichever parsers have been used before; parts which are not in the output are missing in the result.", "quantifier": "all output files of the format, numbers of atoms, values, unit factors, histories of parsers created before", "why_tests_cant": "A test reads one file in a fresh process; whether the unit of the stress depends on the parsers used before can be seen only for all histories.", "anchors": ["src/pwtools/io.py: read_cp2k_scf", "src/pwtools/parse.py: Cp2kSCFOutputFile, Cp2kMDOutputFile, StructureFileParser.get_cont"]}
{"id": "C135", "title": "the dcd readers return what is in the files", "statement": "For a CP2K or LAMMPS run which wrote its trajectory to a dcd file, io.read_cp2k_md_dcd and io.read_lammps_md_dcd return the coordinates and lattice constants of every frame of the dcd file, in order (for LAMMPS angles in degrees from the cosines in the file), and the values in the text files, all times the unit factors of the user or of the program, whichever parsers have been used before; a file which ends within a frame is refused; and for a LAMMPS run the cells found from the dcd file are identical with those found from the text dump.", "quantifier": "all dcd and text files of the formats, numbers of frames, atoms and columns, values, unit factors, histories of parsers created before, boxes of positive size with any tilt factors", "why_tests_cant": "A test compares the readers on one run; whether lattice constants with cosines and cells with tilt factors agree has to hold for every box and every factor of the user.", "anchors": ["src/pwtools/io.py: read_cp2k_md_dcd, read_lammps_md_dcd", "src/pwtools/parse.py: DcdOutputFile, Cp2kDcdMDOutputFile, LammpsDcdMDOutputFile", "src/pwtools/crys.py: Trajectory.get_cell, cc2cell"]}
{"id": "C136", "title": "read_pdb returns every atom and the cell of a PDB file", "statement": "For a PDB file whose fields are separated by blanks, io.read_pdb returns one atom per ATOM or HETATM record, in the order of the file, with the coordinates in the x, y, z columns times the length unit of the user, the symbol made from the atom name (two letters: the second one small), and the lattice constants of the first CRYST1 record with the lengths times the same unit and the angles unchanged, whichever parsers have been used before; other records in between are ignored.", "quantifier": "all files: any number of atoms, any text without such records before, between and behind them, any widths of blanks, numbers, unit factors, histories of parsers created before", "why_tests_cant": "Tests read one file with one residue numbering; whether a backtracking regular expression finds the right three numbers in every record cannot be seen from one file.", "anchors": ["src/pwtools/io.py: read_pdb", "src/pwtools/parse.py: PDBFile", "src/pwtools/regex.py: float_re"]}
{"id": "C137", "title": "The input files made by cif2any describe the crystal of the CIF file", "statement": "From a structure with lattice constants and atoms, cif2any.py prints sections from which each program reads the same crystal: CPMD the constants in Bohr and all atoms grouped by species; CP2K the lengths of the CIF file in Angstrom, the angles, all atoms in order and one kind for each symbol; PWscf the numbers of atoms and species, celldm(1..6), the cell in three units which agree with each other, and all atoms in order; ABINIT the lengths, angles, and all atoms with their species.", "quantifier": "all structures: any number of atoms and species in any order, all lattice constants which belong to a cell, all number formats whose words begin with a digit or a minus sign", "why_tests_cant": "The script has no tests at all; a test would compare the text for one crystal, not what the programs read from it for every order of the atoms.", "anchors": ["bin/cif2any.py", "src/pwtools/pwscf.py: atpos_str, atspec_str", "src/pwtools/common.py: str_arr, seq2str", "src/pwtools/crys.py: Structure.get_znucl, get_typat, get_nspecies, cc2celldm"]}
{"id": "C138", "title": "The conversion scripts keep the crystal", "statement": "read_cif returns symbols, fractional or Cartesian positions and lattice constants of the CIF file in the unit of the user. What cif2sgroup.py prints for a CIF file is read by sgroup as the same lattice constants, symbols and fractional coordinates in the same order. The structure from which cif2any.py makes its output is the crystal of the CIF file in Bohr. The CIF file which pdb2cif.py writes for a PDB file with a cell is read back with the same atoms and lattice constants and with fractional coordinates that are those of the positions of the PDB file, up to the rounding of printed numbers.", "quantifier": "all CIF data blocks with a cell, symbols or labels, numbers with or without uncertainties; all PDB files of the form in C136 with a possible cell; any number of atoms; any parsers used before; any number format", "why_tests_cant": "The scripts have no tests; a test would convert one file and could not settle every cell, order of atoms and number format.", "anchors": ["bin/pdb2cif.py", "bin/cif2sgroup.py", "bin/cif2any.py", "src/pwtools/io.py: read_cif, read_pdb, write_cif", "src/pwtools/parse.py: CifFile, PDBFile", "src/pwtools/crys.py: Structure", "src/pwtools/io.py: wien_sgroup_input"]}
{"id": "C139", "title": "Structure and ASE Atoms convert into each other", "statement": "atoms2struct(struct2atoms(st)) is the same crystal as st: symbols, number of atoms, cell, lattice constants, Cartesian and fractional coordinates and volume are equal, whichever of them st was made from. The ASE object has the Cartesian coordinates of st as positions. With pbc the fractional coordinates come back moved into the cell by lattice vectors in the periodic directions only, and everything else is kept. FakeASEAtoms of st is the same crystal. A structure without symbols, cell or coordinates gives None.", "quantifier": "all structures made from consistent attributes (cell or lattice constants, Cartesian or fractional coordinates), any number of atoms, any cell which is not flat, any choice of periodic directions", "why_tests_cant": "The test makes the round trip for one random structure given by fractional coordinates and a cell, without pbc; it is skipped when ASE is not installed.", "anchors": ["src/pwtools/crys.py: Structure.get_ase_atoms, Structure.get_fake_ase_atoms, atoms2struct, struct2atoms, FakeASEAtoms", "test/test_ase.py"]}
{"id": "C140", "title": "Tables of SQLiteDB stay, and query helpers return what is stored", "statement": "create_table works exactly if no table of that name (case ignored) is there and the columns are different; get_header then returns the given columns with normalised types, and creating a table from the header of another one gives the same header. Over any history of set_table, create_table and add_columns, also with errors, an existing table is never lost: its columns keep order and type, new ones come behind, rows and values are kept; has_table is true exactly for tables which were created. The table keyword overrides set_table. get_list1d returns the values of the result row by row, one Python value for each; get_single returns the value exactly if there is one row.", "quantifier": "all databases, all histories of operations, all names and headers, results of queries with any number of rows and columns", "why_tests_cant": "The test makes one table with three columns, adds columns once and queries one column of numbers. It has no failing operations, no second table and no BLOB column.", "anchors": ["src/pwtools/sql.py: SQLiteDB.set_table, SQLiteDB.has_table, SQLiteDB.get_header, SQLiteDB.create_table, SQLiteDB.add_columns, SQLiteDB.get_list1d, SQLiteDB.get_single", "src/pwtools/common.py: flatten", "test/test_sql.py"]}
{"id": "C141", "title": "Fit functions and calculations of a Gibbs object do not depend on its history", "statement": "calc_F, calc_H and calc_G of a Gibbs object give what a new object with the same data and the fit functions set last would give, whatever was calculated, failed or set before; set_fitfunc is in effect for all later calculations, and an unknown key changes nothing.", "quantifier": "all Gibbs objects, all histories of set_fitfunc, calc_F, calc_H and calc_G (with or without calc_all, with or without a dictionary of the caller), all fit functions", "why_tests_cant": "The tests set fit functions only before the first calculation and compare single calculations. That an old fit survives in the object needs set_fitfunc after a calculation.", "anchors": ["src/pwtools/thermo.py: Gibbs.set_fitfunc, Gibbs._set_fitax, Gibbs.calc_F, Gibbs.calc_H, Gibbs.calc_G", "test/test_gibbs.py"]}
{"id": "C142", "title": "matdyn2fqha.py writes a file which F_QHA reads as the DOS it was given", "statement": "From the output of matdyn2fqha.py, in the format its comments describe, the program reads the number of atoms (a third of the integral of the DOS, right if the integral is off by less than 3/2), the number of lines, the largest frequency and the spacing, and then exactly the frequencies and densities of the input file in order. The file is printed unchanged below the header.", "quantifier": "all DOS files with any number of lines and columns, any way of printing numbers as words, any quadrature", "why_tests_cant": "There is no test of the script.", "anchors": ["bin/matdyn2fqha.py"]}
{"id": "C143", "title": "Gathered results are in the row of their own calculation, also when the study is extended or a gather script is interrupted", "statement": "In the workflow of examples/parameter_study (write_input, then a script which adds columns and runs \"update calc set col=? where idx==?\" for each idx of the table), after a gather script has returned, each row has the results of the calculation with its idx under the names of the quantities, all other columns are unchanged, and no row is added or lost. This stays so for any sequence of extending the study with write_input, gathering again, and gather scripts which raise or are killed at any point: then a row has its own new result or what it had before, never a result of another calculation. A script returns if there are storable results for all calculations and no names clash.", "quantifier": "all sequences of calls of write_input (any mode, any machines, parameters) and of gather scripts with any quantities and results, all crash points of the scripts", "why_tests_cant": "Tests look at single calls on one small table. The examples are not run by the tests.", "anchors": ["examples/parameter_study/10local_lammps_ev/30gather.py", "examples/parameter_study/20cluster_pwscf_convergence/30gather.py", "src/pwtools/sql.py: SQLiteDB.add_columns, SQLiteDB.get_list1d, SQLiteDB.execute, SQLiteDB.commit, SQLiteDB.__del__", "src/pwtools/batch.py: ParameterStudy.write_input"]}
{"id": "C144", "title": "All methods of parsers and containers answer the same after any history of calls", "statement": "For an object derived from FlexibleGetters (parsers, Structure, Trajectory) whose getters call each other without cycles: after any sequence of try_set_attr_lst, check_set_attr_lst, get_return_attr, is_set_attr_lst, assert_attr_lst, assert_set_attr_lst and init_attr_lst (which does not reset attributes given by the user), get_return_attr returns the value which the definition of the attribute gives, check_set_attr_lst is True and assert_set_attr_lst does not raise exactly if all attributes have a value, and is_set_attr_lst is never True for an attribute without one. raw_return(name) is the same as raw_slice_get(name, slice(None), axis) for each valid axis, as documented.", "quantifier": "all families of acyclic getters, all given attributes, all sequences of calls, all lists of attributes, all raw arrays and axes", "why_tests_cant": "Which getters run depends on what was called before; tests call set_all or one getter on a fresh object.", "anchors": ["src/pwtools/base.py: FlexibleGetters.init_attr_lst, FlexibleGetters.is_set_attr_lst, FlexibleGetters.check_set_attr_lst, FlexibleGetters.assert_attr_lst, FlexibleGetters.assert_set_attr_lst, FlexibleGetters.get_return_attr, FlexibleGetters.raw_return, FlexibleGetters.raw_slice_get"]}
{"id": "C145", "title": "Positions of peaks from splines", "statement": "find_peaks(y, x, spread=spread) for increasing x returns, besides the indices of the peaks, one position per peak in the same order; the position belongs to the peak: it lies between x[i-spread] and x[i+spread] (or the last point), the spline through the points there has slope zero at it, and if the spline is concave there it is the maximum of the spline and lies between the two neighbours x[i-1] and x[i+1] of the peak. It returns whenever more than k points are around each peak and the spline rises at the first and falls at the last of them.", "quantifier": "all data of equal length with increasing x, all spreads >= 1, all splines which interpolate with continuous slope, all root finders which return a root in the bracket", "why_tests_cant": "A test has a few smooth curves with peaks far from the ends; where the peaks are depends on the data.", "anchors": ["src/pwtools/signal.py: find_peaks", "src/pwtools/num.py: Spline, Fit1D.get_min"]}
{"id": "C146", "title": "The default placeholders exist in every parameter study", "statement": "default_repl_keys() returns exactly the keys which every parameter study has, each once: revision, study_name, idx, calc_name and, from the machine, subcmd, scratch, home. As documented, the placeholder of each of them can be used in any template of any study, independent of params_lst, and is replaced by the revision, study name, number, calculation name of the calculation or the attribute of the machine.", "quantifier": "all studies, machines, parameter sets, revisions, numbers, all templates without explicit keys, all placeholder functions", "why_tests_cant": "The function runs a dummy study to find the keys; a test sees this one study, the claim is about every other one.", "anchors": ["src/pwtools/batch.py: default_repl_keys, ParameterStudy.write_input, Calculation.__init__, Machine.get_sql_record, FileTemplate.writesql", "src/pwtools/common.py: template_replace"]}
{"id": "C147", "title": "Labels of a dispersion plot sit at their k-points", "statement": "For special points, a fine path made of them by kpath.kpath, its path norm and the frequencies on it, plot_dis draws tick number i with the symbol of special point i at exactly the x position where the frequencies of this special point are drawn, vertical lines at the same positions, and lets the x axis range from the first to the last special point; distances between ticks are distances between special points. show_coords adds the coordinates of the same point. As documented, axdos is None exactly if no density of states is given, special_points_path, ks_frac and symbols are optional.", "quantifier": "all special points, all numbers of points per segment, all frequencies, symbols, densities of states", "why_tests_cant": "A plot is checked by eye at best; that two path norms, of the vertices and of the fine path, agree at every vertex is a statement about all paths and point numbers, and optional arguments multiply the cases.", "anchors": ["src/pwtools/kpath.py: kpath, get_path_norm, SpecialPointsPath, plot_dis"]}
{"id": "C148", "title": "Comparison of nested values says equal exactly for equal values", "statement": "pwtools.test.tools.all_types_equal(d1, d2) returns True exactly if both are equal: for dicts the same keys at every level of nesting and equal values at every place, for arrays the same data type, shape and elements, for other values equality. all_types_almost_equal is the same with a tolerance for numbers. strict=True also requires equal types of the values, keys restricts the comparison of dicts to these keys, keywords such as atol reach every comparison.", "quantifier": "all nested dicts of None, numbers, texts and arrays, all shapes, all keys, all tolerances", "why_tests_cant": "These functions decide whether all other tests of the project pass; a test of them sees a few pairs of values, while a wrong True for one pair of shapes or at one level of nesting hides failures everywhere.", "anchors": ["src/pwtools/test/tools.py: AllTypesFactory, DictWithAllTypesFactory, array_equal, array_almost_equal, all_types_equal, all_types_almost_equal, dict_with_all_types_equal"]}
{"id": "C149", "title": "Distances do not depend on backend or threads, estimated widths are lengths", "statement": "num.distsq(arrx, arry) returns the squared distances of all pairs of points whatever the number of OpenMP threads and their schedule, refuses points of different dimension, and agrees with rbf.squared_dists with and without JAX (rbf.euclidean_dists is its square root). rbf.estimate_p returns a length: it scales with the units of the points, does not depend on the origin, the order of the points or on coordinates which are the same for all points, and is positive if two points differ. An Rbf model with an estimated width therefore predicts the same values in any units.", "quantifier": "all numbers of points and dimensions, all points, all numbers of threads and schedules, all kernels, units and origins", "why_tests_cant": "A race between threads shows up only in rare schedules, and invariance under units, order and origin is a statement about all inputs; tests compare a few random arrays.", "anchors": ["src/pwtools/num.py: distsq", "src/_ext_src/flib.f90: distsq", "src/pwtools/rbf/core.py: _np_distsq, squared_dists, euclidean_dists, estimate_p, Rbf.__init__"]}
{"id": "C150", "title": "Cutting trajectories in a directory: complete runs, backups, crashes, second runs", "statement": "A complete run of bin/cut-cp2k.sh <dir> <step> or bin/cut-cpmd.sh <dir> <step> cuts every file which exists and leaves the uncut file as .bak; with -s (or --not-inplace) nothing is changed. If the script is killed at any point, the original contents of every file are still in the directory under its name or as .bak. Running it again after a crash gives the same files as one complete run. Without <step>, cut-cp2k.sh uses STEP_START_VAL + 1 from the restart file and stops without changes if it cannot determine it.", "quantifier": "all contents of all files, files which are missing, all steps, all crash points between two atomic effects, second runs", "why_tests_cant": "A crash between two effects cannot be timed in a unit test, and the scripts have no tests; the guarantees are about every crash point and every directory.", "anchors": ["bin/cut-cp2k.sh", "bin/cut-cpmd.sh"]}
{"id": "C151", "title": "poly_str writes the polynomial that polyval evaluates", "statement": "The text of num.poly_str(ndim, deg), read as a formula (sum of products of a coefficient a<i> and powers x<j>^<n>), has a value for all coefficients and points, and num.polyval gives this value, at the scaled point, times the scale of the values plus their offset. Different numbers of variables or degrees give different texts. Without variables the text is not a formula.", "quantifier": "all numbers of variables, degrees, coefficients, scalings and points", "why_tests_cant": "A test compares a few strings; that the names in the text match the order of the coefficients and of the power vectors for every dimension and degree is a statement about all of them.", "anchors": ["src/pwtools/num.py: poly_str, poly_powers, polyval"]}
{"id": "C152", "title": "inner_points_mask removes edge points", "statement": "Whenever num.inner_points_mask(points) returns, it gives one entry per point, every point left out is an edge point of the set, and all points lie in the convex hull of the points left out. In one dimension with sorted points, points[msk] is points[1:-1]; if all points differ, none of the points kept is an edge point. Unsorted and empty input stops.", "quantifier": "all sets of points in all dimensions; in more than one dimension for any Delaunay routine which returns facets of the convex hull", "why_tests_cant": "A test checks grids of one size; the statement is about every set of points.", "anchors": ["src/pwtools/num.py: inner_points_mask"]}
{"id": "C153", "title": "Plot styles: shared iterators and colour transitions", "statement": "In one process all users of the style iterators of mpl, through long and short names, draw from the same sequence: the draw with k earlier draws gets style k (counted around for cycle_*, StopIteration after the last style for iter_*), all styles of a sequence differ, and draws from other iterators do not matter. The combined lists contain every combination. smooth_color goes from 0 to 1 in equal steps over at least two passes, smooth_color_func is the list of function values at these numbers; one pass divides by zero.", "quantifier": "all histories of draws by all users in a process, all numbers of passes and functions", "why_tests_cant": "The iterators are global state of the module, so the statement is about every interleaving of uses, which no single test covers.", "anchors": ["src/pwtools/mpl.py: cycle_colors, iter_colors, colors_markers, smooth_color, smooth_color_func"]}
{"id": "C154", "title": "Legends of several axes and plots by name", "statement": "mpl.collect_legends(*axs) gives the handles and labels of the axes one after the other, and the k-th handle still belongs to the k-th label; without axes it stops. mpl.prepare_plots(names) with different names has exactly these names as keys, in this order, each with its own plot.", "quantifier": "all numbers of axes and legend entries, all lists of names", "why_tests_cant": "A test shows one figure with two axes; pairing of handles and labels is a statement about all numbers of axes and entries.", "anchors": ["src/pwtools/mpl.py: collect_legends, prepare_plots"]}
{"id": "C155", "title": "The RPDF does not depend on the supercell", "statement": "For every structure or trajectory, every supercell made by crys.scell (all non-zero dimensions, also negative ones, both methods and directions), every bin width, distance mask and every rmax up to crys.rmax_smith of the small cell, crys.rpdf(..., norm_vmd=False) of the supercell returns the same array as of the cell. With norm_vmd=True the radii and the number integral are the same.", "quantifier": "all cells, atoms, numbers of steps, dimensions of the supercell, bin widths, masks and radii", "why_tests_cant": "A test compares one structure and one supercell with a tolerance; that every pair and every periodic image is counted exactly once, with the right norm, in all supercells is a statement about all of them.", "anchors": ["src/pwtools/crys.py: rpdf, scell, rmax_smith"]}
{"id": "C156", "title": "Distances and RPDF do not depend on how the crystal is described", "statement": "Replacing atoms by periodic images (as crys.pbc_wrap_coords does), another order of the atoms, another origin in each step and a rotation or reflection of the whole crystal do not change crys.distances(pbc=True) (up to the order) and return the same array from crys.rpdf, with rmax given or \"auto\", for all masks on distances and both norms. Without periodic boundary conditions distances do not change under a common shift and rotation.", "quantifier": "all cells, atoms, orders, lattice vectors, shifts, rotations and arguments of rpdf", "why_tests_cant": "Symmetries of the input are infinitely many; a test tries one wrapped or rotated structure and compares with a tolerance.", "anchors": ["src/pwtools/crys.py: distances, rpdf, pbc_wrap_coords, min_image_convention, rmax_smith, volume_cell"]}
{"id": "C157", "title": "Laws of thermodynamics for HarmonicThermo", "statement": "For every positive frequency axis and dos: as the temperature goes to zero the entropy and the heat capacity go to zero and the internal and free energy both go to the zero point energy (third law); the slope of the entropy is the heat capacity divided by the temperature; with a non-negative dos (and an integration rule that is non-negative on non-negative arrays) internal energy and entropy never fall and the free energy never rises with temperature, and the zero point energy lies between free and internal energy; all four quantities are additive and homogeneous in the dos.", "quantifier": "all frequency axes with positive frequencies, all dos arrays of equal length, all temperatures, all integration rules linear in the array", "why_tests_cant": "A limit and a monotonicity statement over all temperatures; tests compare finitely many temperatures with reference numbers.", "anchors": ["src/pwtools/thermo.py: HarmonicThermo.evib, HarmonicThermo.fvib, HarmonicThermo.svib, HarmonicThermo.cv"]}
{"id": "C158", "title": "VACF and PDOS do not depend on units, orientation, order, copies and direction of time", "statement": "pyvacf, fvacf (any threads), pdos(method=\"direct\") with all arguments and vacf_pdos return the same arrays when velocities and masses are given in other units, the velocities of each atom are rotated or reflected in a fixed way, atoms are listed in another order with their masses, every atom is repeated N times (supercell), atoms which do not move are added, or the trajectory is run backwards. More generally the results depend only on the mass weighted scalar products of the velocities at two times, up to a common factor.", "quantifier": "all velocity arrays, non-negative masses or none, factors, orthogonal matrices, permutations, numbers of copies and arguments of pdos", "why_tests_cant": "Each symmetry ranges over infinitely many transformations and trajectories; a test compares one pair of spectra with a tolerance.", "anchors": ["src/pwtools/pydos.py: pyvacf, fvacf, pdos, vacf_pdos, direct_pdos", "src/_ext_src/flib.f90: vacf"]}
{"id": "C159", "title": "RBF models do not depend on origin, axes, order and units of the data and are linear in the values", "statement": "For rbf.Rbf: shifting, rotating or reflecting training points and evaluation points leaves values unchanged and rotates the gradient (any kernel, any r, given p or p=\"mean\"); the order of the training data does not matter; scaling all lengths (points and p; p=\"mean\" scales by itself) leaves values unchanged and divides gradients by the factor; the model and its gradient are linear in the training values as long as these are not all zero.", "quantifier": "all training data, kernels, evaluation points, orthogonal matrices, shifts, permutations, scale factors; exact solvers", "why_tests_cant": "Symmetries are infinitely many; a test compares one pair of models with a tolerance.", "anchors": ["src/pwtools/rbf/core.py: Rbf, Rbf.fit, Rbf.predict, Rbf.deriv, squared_dists, estimate_p, rbf_gauss, rbf_multi, rbf_inv_multi"]}
{"id": "C160", "title": "Polynomial fits do not depend on scaling, order and units, and are linear in the values", "statement": "For num.polyfit/polyval in any dimension: if the points determine a polynomial of the degree (e.g. contain a grid with more than deg values on each axis), fits with any setting of scale and scale_vand and the data in any order give the same function everywhere; data taken from a polynomial give back this polynomial everywhere; the fitted function is linear in the values; other units and origins of coordinates and values give the same function in these units.", "quantifier": "all dimensions, degrees, points, values, settings, permutations, affine changes of each axis and of the values; exact least squares solver; no internal scale zero", "why_tests_cant": "A statement about all points of space and all data sets; a test compares two fits at some points with a tolerance.", "anchors": ["src/pwtools/num.py: polyfit, polyval, vander, poly_powers, PolyFit, PolyFit1D"]}
{"id": "C161", "title": "Lattice constants are enough for all distances; angles and neighbours do not depend on the description of the crystal", "statement": "A cell rebuilt from its lengths and angles (cell2cc, then cc2cell: what every format without cell vectors amounts to) gives the same distances, volume, rmax_smith and rpdf for the same fractional coordinates. crys.angles and crys.nearest_neighbors give the same angles, the same neighbours within a cutoff and the same distances of the num nearest neighbours for another order of the atoms, other periodic images, another origin and another orientation.", "quantifier": "all non-singular cells, numbers of atoms, coordinates, symbols, skip lists, cutoffs, numbers of neighbours, mask values; all permutations, lattice translations, shifts and orthogonal matrices; every order argsort may leave ties in", "why_tests_cant": "A statement about all cells and all rigid motions and about ties in argsort; a test has one crystal and one sort order.", "anchors": ["src/pwtools/crys.py: cell2cc, cc2cell, distances, angles, nearest_neighbors, nearest_neighbors_from_dists, rmax_smith, rpdf", "src/pwtools/flib.f90: angles, distsq_frac"]}
{"id": "C162", "title": "A supercell describes the same crystal, and supercells can be built in steps", "statement": "crys.scell describes the same infinite periodic crystal as the structure it was built from, for all non-zero (also negative) dimensions, both methods and directions. A supercell of a supercell has the same cell and the same atoms with the same symbols, each as often, as the supercell with the products of the dimensions (second dimensions positive); steps with positive dimensions can be exchanged; direc only changes the order; (1,1,1) returns the structure unchanged.", "quantifier": "all structures with symbols, all non-zero dimensions, both methods and directions in each step", "why_tests_cant": "Infinitely many lattice points, unbounded dimensions and numbers of atoms; a test compares one supercell with one other.", "anchors": ["src/pwtools/crys.py: scell, scell_mask"]}
{"id": "C163", "title": "The drawing helpers draw what is asked for, and only that", "statement": "mpl.plotlines3d draws len(y) curves, curve j through the points (x[i,j], y[j], z[i,j]) with 1d x or z used for every curve, or fails without drawing when the shapes do not fit. mpl.color_ax changes exactly the colours of the given direction and spine. Plot.savefig writes one file per extension. Any sequence of successful new_axis calls puts each line away from the plot by its offset and moves each side of the plot by the sum of the whitespace asked for (up to the printed digits), never past the opposite side.", "quantifier": "all arrays, shapes, colours, names; all sequences of new_axis calls", "why_tests_cant": "Arrays of all shapes and call sequences of all lengths; a test draws a few figures nobody compares.", "anchors": ["src/pwtools/mpl.py: plotlines3d, color_ax, new_axis, Plot.savefig"]}
{"id": "C164", "title": "Volumes, enthalpies and bulk moduli under pressure are thermodynamically consistent", "statement": "With the default fit functions and six or more different volumes, the results of Gibbs.calc_H and Gibbs.calc_G (case 1d) for a list of pressures are those of one body whose (free) energy is the fifth degree polynomial closest to the computed energies, the same for all pressures: at each pressure -dE/dV equals the pressure, the enthalpy is E + PV at this volume, and B = V E''. If the fitted energy is convex between the first and last volume, the volume is where the enthalpy is smallest, higher pressure gives a smaller volume, and the enthalpy difference of two pressures lies between V_q dP and V_p dP. With two axes (case 2d) and a volume which is a polynomial of the axes, the stored G is E + PV at the stored axes and V their volume; the internal scaling of G has no effect. polyfit returns a fit for all data, and the search for the minimum succeeds if the pressure lies between those of the fit at the first and the last volume.", "quantifier": "all volumes and energies (at least six different volumes), all pressures, all temperatures", "why_tests_cant": "The statement relates independent fits at different pressures, for all energies; a test checks one material with a tolerance.", "anchors": ["src/pwtools/thermo.py: Gibbs.calc_H, Gibbs.calc_G, Gibbs._fit_opt_store, Gibbs._default_fit_1d_G, Gibbs._default_fit_2d_G", "src/pwtools/num.py: PolyFit, PolyFit1D, Fit1D.get_min, polyfit, polyval"]}
{"id": "C165", "title": "The parameters of the Vinet equation of state have their physical meaning, and fits do not depend on units", "statement": "For the E(V) function used by EosFit: b1 is dB/dP at V0 (B = V E'', P = -E'), the energy is larger than e0 at each volume other than v0, for b1 > 1 each pressure >= 0 belongs to exactly one volume up to v0 and higher pressures to smaller volumes, and there is exactly one volume (larger than v0) at which the bulk modulus changes its sign. Two parameter sets with the same curve are equal. Energies in another unit and energy and volume per atom or per cell scale e0, b0 and v0 as quantities of these dimensions, leave b1, and turn least squares parameters into least squares parameters. The parameter list of the optimizer is read in the order in which it is written.", "quantifier": "all parameters with v0, b0 > 0 (and b1 > 1 or b1 != 1 where stated), all volumes, all data, all positive scale factors", "why_tests_cant": "The statements range over all volumes and parameters and concern derivatives, uniqueness and exact minimisers; tests compare a few numbers with a tolerance.", "anchors": ["src/pwtools/eos.py: Vinet.evaluate, Vinet.deriv, EVFunction.lst2dct, EVFunction.dct2lst, EosFit.fit, EosFit.get_min, EosFit.bulkmod, EosFit.pressure"]}
{"id": "C166", "title": "Phonon densities of states of harmonic motions are lines at the frequencies of the modes; spectra exist and are not negative", "statement": "If the velocities are a sum of modes which oscillate k times within the n steps (0 < k < n/2), pdos(method=\"direct\", npad=None, window=False) returns one line per mode at k/(n dt) whose height is proportional to the kinetic energy of the mode, with the same factor for all modes, and zero at all other frequencies. direct_pdos and vacf_pdos return a spectrum for every trajectory of three or more steps in which an atom moves; no value is negative, one is positive, and the integral is the requested area; with one or two steps there is no result. The VACF of all methods and thread schedules starts with 1 and stays between -1 and 1, and is 1 - t/n for uniform motion.", "quantifier": "all trajectories, masses (non-negative), amplitudes and phases of modes, time steps, numbers of steps and atoms, thread schedules", "why_tests_cant": "Tests compare the two methods on random numbers or look at one frequency; the statements hold for all sums of modes and all motions.", "anchors": ["src/pwtools/pydos.py: pdos, direct_pdos, vacf_pdos, pyvacf, fvacf", "src/pwtools/num.py: norm_int", "src/pwtools/signal.py: pad_zeros, welch"]}
{"id": "C167", "title": "A larger regularisation parameter r gives stiffer Rbf models which are never closer to the data; r > 0 always gives a model", "statement": "Rbf with r > 0 returns the model which minimises the squared deviations from the training values plus r times its bending (w^T G w). A larger r gives a model with less or equal bending and a fit_error on the training points which is not smaller. The squared deviations are at most r times the bending of the interpolation (r=0), so they vanish for small r, and at most those of the function zero; the bending goes to zero for large r.", "quantifier": "all training points and values, all r > 0 and pairs r < r', all shape parameters p, all kernels", "why_tests_cant": "The docstring of fit promises the trend for all data; a test compares two values of r for one data set.", "anchors": ["src/pwtools/rbf/core.py: Rbf.fit, Rbf._solve, Rbf.predict, Rbf.fit_error, rbf_gauss, rbf_multi, rbf_inv_multi"]}
{"id": "C168", "title": "signal.smooth: within the data, linear, independent of the direction, straight lines stay", "statement": "With norm=True and a window of non-negative weights smooth(data, kern) lies within the data: in every interval, ball or other convex set which contains the data. It is linear and commutes with every linear map of the values (components, rotations, units); it keeps the order of two signals; with a symmetric kernel of odd length the reversed data gives the reversed result. Where the kernel does not reach beyond the ends both edge methods give the same plain weighted average; straight lines are then unchanged for symmetric kernels of odd length and moved by half a step to the right for even length.", "quantifier": "all data (numbers or vectors), all kernels of even and odd length, both edge methods", "why_tests_cant": "The statements hold for all signals and windows; a test looks at a few noisy curves.", "anchors": ["src/pwtools/signal.py: smooth"]}
{"id": "C169", "title": "crys.smooth smooths every time series of a trajectory and keeps it consistent", "statement": "smooth(traj, kern, method) returns a trajectory with the same nstep, timestep and attributes without time axis; exactly the attributes with time axis that were set are set, with the same shape, and every scalar time series in them is signal.smooth of the original one. method=1 and method=2 give the same. The attributes still belong together: coords = coords_frac . cell and time[i] = i*timestep.", "quantifier": "all trajectories (any attributes set, any numbers of steps and atoms), all 1d kernels with non-zero sum, both methods", "why_tests_cant": "Tests smooth one random trajectory and compare shapes and one attribute.", "anchors": ["src/pwtools/crys.py: smooth, Trajectory", "src/pwtools/signal.py: smooth"]}
{"id": "C170", "title": "Viewers show the object and leave nothing behind", "statement": "view_xcrysden, view_vmd_*, view_jmol and view_avogadro write the object to a file, run the command \"<cmd> <options> <structfile> > <logfile>\" once, at a time when the file holds the object, and with keepfiles=False delete the two files afterwards, also when the viewer fails; no other file is touched, no file descriptor stays open, and the object is not changed. bg=True runs the viewer in the background and keeps the files. Viewers for structures refuse trajectories before anything is written.", "quantifier": "all objects, viewers, arguments, file systems, exit codes of the viewer, and numbers of calls in one process", "why_tests_cant": "What remains after failures and after many calls in one session depends on every way a call can end; a test calls no viewer at all.", "anchors": ["src/pwtools/visualize.py: ViewFactory, assert_struct, view_xcrysden, view_vmd_axsf, view_vmd_xyz, view_jmol, view_avogadro", "src/pwtools/common.py: system"]}
{"id": "C171", "title": "One interface for all interpolators of 2d data", "statement": "num.Interpol2D gives the same interpolator, or the same error, for points+values, xx+yy+values and a Data2D object, whatever the kind; points together with xx or yy, a single coordinate, and unknown kinds are refused. Evaluating many points is evaluating each of them, and a single point gives an array of one value. The radial basis function kinds (r=0) take the given values at any different points and are a sum of the radial functions they are named after, centred on the points. get_min() returns a point whose value is not larger than any data value (for a kind that takes the given values), or than the value at x0.", "quantifier": "all sets of points and values, forms of input, kinds, keywords r and p, evaluation points, and minimisers that do not get worse", "why_tests_cant": "The agreement of the three input forms and the interpolation property range over all point sets; a test has one surface.", "anchors": ["src/pwtools/num.py: Interpol2D", "src/pwtools/rbf/core.py: Rbf"]}
{"id": "C172", "title": "Digital filters do to a signal what their frequency response says", "statement": "signal.FIRFilter is linear, causal and time invariant. A harmonic signal with frequency w[j] comes out multiplied by h[j], once ntaps-1 samples have passed. An oscillation of any frequency and phase comes out delayed by (ntaps-1)/2 samples and multiplied by the gain at its frequency; lowpass filters keep constants, highpass filters the Nyquist frequency and bandpass filters the middle of the band. ntaps, or else ripple and width, set the number of coefficients and the window; without them, with an unknown mode, or with a number of cutoffs other than two for a band, the filter is refused. All four documented modes work.", "quantifier": "all signals, frequencies, phases, cutoffs, numbers of coefficients, windows and modes", "why_tests_cant": "The response holds for every signal and every frequency; a test plots one filtered signal.", "anchors": ["src/pwtools/signal.py: FIRFilter"]}
{"id": "C173", "title": "What is in the database file after the end, an error or a kill", "statement": "SQLiteDB: if the process is killed at any point, the file holds a state of the database which the process had seen, not older than the last commit() or finish(). Methods which change the database are all or nothing with respect to kills before the next commit. When the program ends, normally or with an exception, or the object is deleted, everything it did is in the file. A statement that raises changes nothing. After finish() nothing can be changed through the object, and finishing again does no harm. executescript() commits what was waiting.", "quantifier": "all databases, histories of execute, executemany, executescript, commit and finish with statements that work or fail, and all points at which the process is killed", "why_tests_cant": "Crash points and histories cannot be enumerated; tests never kill a process.", "anchors": ["src/pwtools/sql.py: SQLiteDB.__init__, execute, executemany, executescript, commit, finish, __del__, attach_column"]}
{"id": "C174", "title": "Velocities from positions are those of the motion; RMSD is a distance", "statement": "For a motion whose acceleration changes at most at the rate M, velocity_traj is off by at most M*dt^2/6 in the interior, so exact for uniform acceleration, and at the ends by the change of velocity over one step in addition. Rotations, units of length, selections of atoms and the centre of mass may be applied to positions or velocities with the same result; the origin does not matter, a unit of time divides, the reversed trajectory has the opposite velocities in opposite order. The velocities add up to the displacement. rmsd() between steps is symmetric and obeys the triangle inequality.", "quantifier": "all motions, numbers of atoms, time steps, linear maps, trajectories and reference steps", "why_tests_cant": "Accuracy for every smooth motion and symmetry under every linear map cannot be sampled.", "anchors": ["src/pwtools/crys.py: velocity_traj, rmsd, rms3d"]}
{"id": "C175", "title": "Classical limit of the harmonic thermodynamics", "statement": "For every positive frequency axis, dos, integration rule which is a weighted sum, and constants: as the temperature grows without bound, internal energy, free energy and entropy approach the classical values kT*int(dos), kT*int(dos*log(hf/kT)) and int(dos*(1-log(hf/kT))), the differences going to zero. With a non-negative dos the heat capacity never falls with temperature and never exceeds int(dos), the internal energy is never below the classical value and never above it by more than the zero point energy, and the free energy is never below its classical value. An object made with dosarea=A has the heat capacity limit A (law of Dulong and Petit) and E/T tends to k*A. Frequencies, dos and h converted to another unit give the same four quantities; frequencies times s with dos over s at temperature s*T give the same entropy and heat capacity and energies times s.", "quantifier": "all frequency axes, dos arrays, temperatures, areas, units and integration rules", "why_tests_cant": "a limit for temperatures without bound and inequalities at every temperature, dos and axis", "anchors": ["src/pwtools/thermo.py:HarmonicThermo.vibrational_internal_energy", "src/pwtools/thermo.py:HarmonicThermo.isochoric_heat_capacity", "src/pwtools/thermo.py:HarmonicThermo.vibrational_free_energy", "src/pwtools/thermo.py:HarmonicThermo.vibrational_entropy", "src/pwtools/thermo.py:HarmonicThermo.__init__"]}
{"id": "C176", "title": "Dumped objects can be read back, also after histories of dumps and kills", "statement": "After dump(fn) without exception read_pickle(fn) returns the object, whatever was in the file, and no other file has changed; after any sequence of dumps each file holds the object dumped last to it. With mkdir=True the call succeeds for any path unless a file or directory is in the way or the object cannot be pickled. If the process is killed at any point, read_pickle(fn) returns the old object, the new object or raises, and before the file is opened the old one. If dump raises, the file keeps its content. load(fn) on an object sets the dumped attributes and keeps all others and the class, so it equals read_pickle(fn) exactly for objects of the same class without other attributes. Attributes set before the dump are not parsed again on the restored object.", "quantifier": "all objects, paths, states of the disk, histories of dumps, kill points, getters", "why_tests_cant": "Kill points, histories of calls and all states of the disk cannot be enumerated by tests.", "anchors": ["src/pwtools/base.py: FlexibleGetters.dump, FlexibleGetters.load, try_set_attr", "src/pwtools/io.py: read_pickle", "src/pwtools/common.py: makedirs, cpickle_load"]}
{"id": "C177", "title": "What transforms and autocorrelations say about a signal", "statement": "For every signal and both methods of dft: the squared magnitudes of the transform add up to N times those of the signal; the second half of the transform of a real signal is the conjugate of the first half in reverse order; starting a periodic signal s steps later multiplies the transform at k with exp(2 pi i s k/N) and leaves the magnitudes; a pure oscillation with j periods gives N at position j and zero elsewhere. With zeros added up to r times the length, ezfft returns all old frequencies with their old values at r times their position. The squared magnitude of the transform of a real signal with any number of zeros added is c(0) + 2 sum c(t) cos(2 pi k t/L) with the autocorrelation c from acorr by any of its methods.", "quantifier": "all signals, lengths, methods, shifts, numbers of zeros and frequencies", "why_tests_cant": "Identities for every signal and every length cannot be sampled.", "anchors": ["src/pwtools/signal.py: dft, ezfft, acorr"]}
{"id": "C178", "title": "What solvate.sh makes of its input, and which files it touches", "statement": "solvate.sh foo.pdb [options] writes to foo_gmx.pdb, foo_gmx.cif and foo_gmx.cif.txt what gmx, pdb2cif.py and cif2any.py make, one after the other, of foo.pdb, the options and the molecule of -ci, which is water if there is no -ci; a second run gives the same. The input and all files other than the three results and the log of the script stay as they are. Without arguments or with -h nothing is changed. (The second statement holds only for files which are not logs, backups or water.pdb; after an error of gmx older results are converted again; file names which contain -h only print the usage.)", "quantifier": "all directories, names, options, contents and behaviours of the called programs", "why_tests_cant": "Tests run the script in one clean directory; the claims range over everything else which may be there and over all names.", "anchors": ["bin/solvate.sh"]}
{"id": "C179", "title": "Rbf gives the same models with and without jax", "statement": "For the same data and settings the weights, the values and the derivatives of an Rbf model are the same with and without jax, and the derivatives by automatic differentiation are the analytic ones. (The weights are the same only for Gaussians and inverse multiquadrics. With jax and multiquadrics no fit is possible for r=0 and two or more different points, nor for r below the largest distance minus p, because the solver used there needs positive definite matrices.)", "quantifier": "all points, values, parameters p and r, the three radial functions, evaluation points", "why_tests_cant": "Tests compare the two modes for some random data; whether the solver is applicable is a statement on all point sets.", "anchors": ["src/pwtools/rbf/core.py: Rbf.fit, Rbf._solve, Rbf.deriv_jax, Rbf.deriv, Rbf.__call__", "src/pwtools/config.py: use_jax"]}
{"id": "C180", "title": "Names of files and directories in shell commands are names", "statement": "The names which users give to parsers, viewers and parameter studies are put into shell commands. Such a command reads, writes and removes the named files and nothing else: the name is one word, unchanged, and the rest of the command stays. In particular write_input(mode=\"w\") removes exactly the directory of the study. (The code does not quote: this holds exactly for names without blanks, quotes, operators and characters of expansions. With a blank in the name of the study, write_input(mode=\"w\") removes the directory named by the part before the blank, and what follows a semicolon in a file name is run.) The output of a command is returned exactly if it writes no error message.", "quantifier": "all names, commands around them, contents of the disk", "why_tests_cant": "Tests use a few harmless names; the claim is for every sequence of characters in a name.", "anchors": ["src/pwtools/common.py: backtick, system", "src/pwtools/batch.py: ParameterStudy.write_input", "src/pwtools/parse.py: PwSCFOutputFile._get_etot_raw, PwSCFOutputFile._get_stress_raw", "src/pwtools/visualize.py: ViewFactory.__call__"]}
{"id": "C181", "title": "The start script submits each calculation once, in its directory", "statement": "The script run.sh which write_input puts beside the calculation directories, run there, submits the job file of every calculation of the call exactly once, in the order of the numbers, each in its own directory, and ends where it was started; a failed submission or a missing directory of one calculation does not keep the others from being submitted. (The code violates the last part for failed submissions: the script stays in the directory of the failed job and submits nothing more; with \"bash\" as submission command every failed calculation ends the study. It also submits only the first job if the name of the directory has a blank. Missing directories are skipped as claimed.) Running the script again submits all jobs again.", "quantifier": "all lists of numbers, submission commands, job names, directory names, sets of existing directories and outcomes of submissions", "why_tests_cant": "Tests compare the text of the script; what it does depends on the outcome of every single submission.", "anchors": ["src/pwtools/batch.py: ParameterStudy.write_input, Machine.get_jobfile_basename"]}
{"id": "C182", "title": "Alignment of structures and trajectories to new axes", "statement": "align_cart with axes given by cart, by x and y, by three positions or by the numbers of three atoms (for a trajectory also of a time step, counted from the end if negative) turns the whole structure or trajectory by one rotation: symbols and fractional coordinates are kept, distances between atoms, also of different time steps, are kept, the second atom is then on the x axis as seen from the first one and the third atom on the y axis, at their old distances. Axes which are not perpendicular raise an exception: whenever the call returns, the cosine of the angle is at most 2 (eps + 1e-5). With eps <= 0, which disables this check, the volume of each cell is multiplied by the squared sine of the angle. Arguments which do not fit raise an exception.", "quantifier": "all structures, trajectories, cells, indices, axes and thresholds", "why_tests_cant": "The claim is about all real geometries and all combinations of arguments.", "anchors": ["src/pwtools/crys.py: align_cart"]}
{"id": "C183", "title": "Derivatives, minima and roots of splines through data", "statement": "deriv_spl returns the n-th derivative on the axis xnew (default: the axis of the data, by default 0, 1, 2, ...): it is exact, also between and outside of the data and for any spacing, if the data are those of a polynomial of degree at most k (default 3); n <= 0, n > k and too few points raise; it equals Spline(x, y)(xnew, der=n). A Spline object made with the accuracy check goes through all points with an error below eps; unordered abscissas raise. findmin of data of a parabola which opens upwards is the vertex, findroot of data of a straight line its root; whatever findroot returns is a zero of the spline within the data.", "quantifier": "all data, axes, orders, keywords, root finders and spline routines as specified", "why_tests_cant": "Tests use sine and parabola on one grid; the claim is for all polynomials, spacings and orders.", "anchors": ["src/pwtools/num.py: deriv_spl, findmin, findroot, Spline.__init__, Spline.__call__"]}
{"id": "C184", "title": "order_similar untangles bands", "statement": "If the first row is in order and, step by step, the next point of each band is closer to the value extrapolated from its last one, two or three points than the points of the other bands, order_similar recovers the bands from rows shuffled in any way, for each order 0, 1, 2 and any repeat. Bands which are parabolas of the row number are recovered with all their later crossings if the first two steps are resolved.", "quantifier": "all bands, numbers of bands and points, shuffles of the rows, orders and repeats", "why_tests_cant": "Tests look at a plot of five sine curves with 200 points; the claim is for all bands and all permutations of each row.", "anchors": ["src/pwtools/num.py: order_similar"]}
{"id": "C185", "title": "Files of structures for LAMMPS and the symbols which runs get from them", "statement": "write_lammps(filename, struct) writes the data file and, in the directory of filename, the file lmp.struct.symbols (or symbolsbasename), and changes no other file. A LAMMPS reader whose log file is in that directory returns the symbols of the structure, after any history of calls and whatever was in the files before. Wherever a call is killed, the data file is not new without its symbols, and data files of earlier calls keep theirs.", "quantifier": "all disks, directories, file names, structures, histories of calls and crash points", "why_tests_cant": "Tests write one structure to an empty directory; the claim is for all histories, names and points where a call is killed.", "anchors": ["src/pwtools/io.py: write_lammps", "src/pwtools/parse.py: LammpsTextMDOutputFile.__init__, get_symbols, StructureFileParser.__init__", "src/pwtools/common.py: file_write"]}
{"id": "C186", "title": "Grids for convergence studies", "statement": "grid_in_cell and kgrid: a smaller h, or larger minpoints, never gives fewer points or a larger spacing along any axis; the resulting spacing is never above 3/2 h, and at most h + h/(2 n) for n points. kgrid of a supercell never has more points than that of the cell and has, along each axis, the number of the cell for the spacing n h; the grid does not depend on the orientation of the cell or the unit of length.", "quantifier": "all cells, spacings, minpoints, even on or off, supercells, rotations and units", "why_tests_cant": "Tests compare a few cells; monotony and invariance are statements about all pairs of calls.", "anchors": ["src/pwtools/crys.py: grid_in_cell, kgrid, recip_cell"]}
{"id": "C187", "title": "plot_dispersion.py draws the dispersion in the file", "statement": "plot_dispersion.py <file> draws one curve per band with one point per k-point of the file of matdyn.x; all curves share the positions on the path, which start at 0 and whose differences are the distances of successive k-points, and the value of curve j at point i is frequency j of k-point i. A missing name, a missing file, an unreadable or an incomplete file raises; more arguments change nothing.", "quantifier": "all files with any numbers of bands and k-points, all arguments, all points where the file is cut off", "why_tests_cant": "There is no test of the script; the claim is for all files.", "anchors": ["bin/plot_dispersion.py", "src/pwtools/pwscf.py: read_matdyn_freq", "src/pwtools/kpath.py: get_path_norm"]}
{"id": "C188", "title": "Normalising an array makes its largest value 1", "statement": "num.normalize(a) has the same ratios and the same order of entries as a, its largest entry is 1, normalising again changes nothing and so does a positive factor in all entries of a; this holds for arrays of any numbers, also complex ones (with absolute values at most 1).", "quantifier": "all arrays of real or complex numbers of any length and all positive factors", "why_tests_cant": "There is no test of the function; the docstring has one array with a positive maximum.", "anchors": ["src/pwtools/num.py: normalize"]}
{"id": "C189", "title": "fullpath names the same place from everywhere", "statement": "common.fullpath(s) is an absolute path without empty, \".\" and \"..\" components which, used in any directory, names the place s names in the current directory (~ and ~/x: in the home directory; ~ with an unknown user is a name like any other). All names of one place give the same text, unless a path starts with exactly two slashes. A second call changes nothing, in any directory. fullpathjoin(a, b) is what b names in the directory a.", "quantifier": "all texts, current directories and home directories; trees of directories without links", "why_tests_cant": "There are infinitely many names of a place; tests use a few.", "anchors": ["src/pwtools/common.py: fullpath, fullpathjoin"]}
