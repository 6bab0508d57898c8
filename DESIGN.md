# Formal model of elcorto/pwtools in Lean 4

## 1. What is here

* `properties.jsonl` — the properties (C01, C02, ...), in words.
* `lean/Verif/Model/*.lean` — the model: one Lean definition per modelled
  function, each with a comment citing file and lines in `/repo`.
* `lean/Verif/Spec/*.lean` — small specifications that do not use the helpers
  of the model (they may mention its data types).
* `lean/Verif/Props/*.lean` — lemmas, the property theorems `Cnn_...`, and
  beside them `example`s showing that concrete, non-trivial cases meet the
  hypotheses.
* `MANIFEST.json` — property → status, theorem names, note.
* `seeded/LOG.jsonl` — wrong programs tried against the theorems: one line per
  edit of a model definition, with the theorems which failed and those which
  were tightened because they did not.

Naming: `Cnn_..._partial` proves a part of the property, its comment says what
is missing. `Cnn_..._counterexample` (and a few others named in section 4)
prove that the unchanged code violates the property, with a concrete witness.

## 2. Trusted base

* Lean's kernel (4.33.0). Theorems depend on at most `propext`,
  `Classical.choice` and `Quot.sound`. No own axioms, no `sorry`, no
  `native_decide`, no `bv_decide`. (`decide +kernel`, used for examples and for
  the table of elements, is evaluation by the kernel.)
* The reading of the Python, Fortran and shell source into the model. The code
  was not run.
* Python/numpy/scipy/sqlite/h5py/sed/grep/OS primitives are modelled by their
  documented meaning (slicing, `itertools.product`, `argsort`, `np.linalg.inv`,
  `np.loadtxt`, `INSERT`/`UPDATE`, `open(...,'w')`, `grep -A`, ...). Each use is
  named in the comment of the definition that needs it.
* Numerical solvers are parameters with a contract: least squares is any
  minimiser, linear solvers any solution, `brentq` any function which returns
  a root of a continuous function with a change of sign, `argsort` any sorting
  permutation, random numbers any stream of numbers in the documented range,
  spglib any function.
* Threads (OpenMP) are interleavings of single loads and stores.

### Global simplifications

* Floating point numbers are exact (ℚ, ℝ, or any (ordered) field). Rounding,
  overflow, NaN/inf are not modelled except where a definition says so (a
  division by zero that yields NaN in numpy is modelled as an error value
  `none`/`.error`, never as Lean's `x/0 = 0`).
* numpy arrays are lists or functions on `Fin n`; shapes are explicit where a
  property is about shapes.
* Exceptions are values (`Except`/`Option`).
* Text files are lists of lines, lines are lists of characters; white space is
  that of `str.split()`.
* Uninitialised memory (`np.empty`) has arbitrary content.

## 3. Properties: what is modelled and how it is proved

| id | title | theorems in `Props/` | what is modelled | how it is proved | status |
|----|----|----|----|----|----|
| C01 | nested_loops enumerates the cartesian product exactly | Comb | lists of lists, recursion over the loops | induction over the list of lists; index formula for the row number | proved |
| C02 | unique2d keeps exactly the first occurrences | Comb | loop with the list of rows seen so far | loop invariant | proved |
| C03 | backup never loses data | Common | file system as a finite map; search for the first free number | invariant over all histories of calls | proved |
| C04 | template_replace is simultaneous substitution | Common | texts as lists of characters, `str.replace` | induction over the dict; simultaneous substitution as an inductive relation | partial |
| C05 | seq2str / str2seq round trip | Common | `str.join`, `str.split` on characters | induction over characters | proved |
| C06 | pop_from_list removes exactly the requested items | Comb | loop with `list.index`, `pop` | induction over the items | proved |
| C07 | flatten yields the leaves in order | Comb | nested lists as trees | structural induction | proved |
| C08 | Documented string inputs of tobool, toslice, ffloat are accepted | Common | dispatch on the type of Python values | case analysis | partial |
| C09 | Getters are order independent and run at most once | Getters | attribute store, getters as programs with a rank | induction on the rank; confluence of any order of calls | proved |
| C10 | lazyprop computes once | Getters | cache per instance | invariant over access histories | proved |
| C11 | TagTimer pairs start and stop per tag | Getters | two slots per tag | invariant over all interleavings | proved |
| C12 | add_column / add_columns are idempotent and lossless | Sql | tables as header and rows | refinement to plain tables | proved |
| C13 | fill_column / attach_column write exactly the requested rows or nothing | Sql | loop of UPDATE and INSERT statements which can fail at each step | induction over the values; prefix property at the failing step | partial |
| C14 | SQL type normalisation | Sql | type names as texts | case analysis, idempotence | proved |
| C15 | ParameterStudy numbering over any history | Study | `write_input` as a state transformer on data base and files | invariant over histories of calls | proved |
| C16 | Appending never touches old calculations | StudyDirs | effects of `write_input` as a list of file operations | prefixes of the list are the crash points; induction | proved |
| C17 | A crash in write_input does not make two calculations share a directory | StudyDirs | same | counterexample states; invariant for committed rows | partial |
| C18 | excl_push lists exactly the old calculations | StudyDirs | the list written by excl_push | invariant over histories | partial |
| C19 | Parameter records: last key wins, all keys kept | Batch | records as lists of key and value | induction over the list | partial |
| C20 | makedb keeps columns aligned | Sql | columns of a table | induction over rows | proved |
| C21 | vlinspace and kpath hit their vertices | Num | points as vectors over a field | arithmetic on indices | proved |
| C22 | get_path_norm measures arc length from the first point | Num | cumulative sums of norms | induction over the points | partial |
| C23 | extend_array repeats along one new axis | NdArray | n-dimensional arrays as shape and index function | equality of index functions | proved |
| C24 | slicetake equals python slicing | NdArray, SliceView | Python slices with negative and missing bounds | case analysis on bounds; index arithmetic | proved |
| C25 | num.sum sums over the requested axes | NdArray | sum over a list of axes, one after the other | induction over the axes; finite sums | partial |
| C26 | match_mask finds exactly the requested values | Num2 | boolean mask | induction | proved |
| C27 | order_similar / round_up_next_multiple helpers | Num2, Num4 | loop over rows with an extrapolated reference | loop invariant | partial |
| C28 | Polynomial bases are complete and evaluation matches | Poly | all exponent tuples up to a degree; least squares as any minimiser | induction over dimensions; polynomials determined by their values | proved |
| C29 | norm_int normalises the area | Num2, Num4 | trapezoid and Simpson sums | linearity of sums | proved |
| C30 | rms / rms3d | Num3 | sums of squares | algebra | proved |
| C31 | euler_matrix is a rotation | Num3 | product of rotation matrices over the reals | matrix algebra | proved |
| C32 | writetxt/readtxt restore arrays | ArrayIO | text file as rows of numbers and a header; `np.loadtxt` | round trip by induction over rows; index arithmetic | partial |
| C33 | dcd readers agree and invert the writer layout | Dcd | file as list of records | round trip by induction over records | proved |
| C34 | scell builds the supercell | Scell | cells and coordinates as 3-vectors | bijection of atoms and cell indices | proved |
| C35 | pbc_wrap moves atoms into the cell by lattice vectors only | Scell | floor function | arithmetic of fractional parts | proved |
| C36 | min_image_convention | Pbc | loops which add or subtract 1 | termination and result of the loop | proved |
| C37 | Minimum image distance is exact below rmax_smith | Pbc | distances over all lattice vectors | bound from the inradius of the cell | proved |
| C38 | coord_trans keeps points and is invertible | Cell | 3x3 matrices | matrix algebra | proved |
| C39 | coords and coords_frac are mutually inverse | Cell | 3x3 matrices | matrix algebra | proved |
| C40 | recip_cell is the dual lattice | Cell | cross products | vector algebra | partial |
| C41 | cryst_const <-> cell | Cell2 | lengths and angles over the reals | trigonometry | proved |
| C42 | celldm <-> cryst_const | Cell | unit conversions and cosines | algebra, arccos | proved |
| C43 | Voigt conversion | Cell | index tables | case analysis | proved |
| C44 | grid_in_cell / kgrid point counts | Cell2, Cell3 | rounding and loops over counts | arithmetic | partial |
| C45 | nearest_neighbors returns the nearest neighbours | Neigh | distance table and a sorting permutation | permutations | partial |
| C46 | velocity_traj is the central difference | Scell | differences of steps | index arithmetic | proved |
| C47 | Unit factors are applied exactly once | Traj3 | state machine for unit factors | invariant over call histories | partial |
| C48 | Trajectory indexing and slicing is consistent | Traj | per-step attributes, Python indices and slices | index arithmetic | proved |
| C49 | Iterating a trajectory visits every step once in order | Traj | iterator state | invariant | partial |
| C50 | concatenate joins trajectories | Traj2 | concatenation per attribute | induction over the parts | partial |
| C51 | mean / mix are affine | Traj2 | weighted sums | algebra | proved |
| C52 | rpdf counts pairs | Rpdf | histogram over pairs and steps | counting; inradius bound for images | partial |
| C53 | Species bookkeeping is consistent | Traj3 | unique symbols, order, counts | induction; permutations | proved |
| C54 | align_cart is a rigid rotation | Cell, Cell3 | QR-like rotation | matrix algebra | proved |
| C55 | center_on_atom centers | Scell | shift and wrap | arithmetic | proved |
| C56 | pad_zeros pads to the requested length | Signal | append zeros | list lemmas | proved |
| C57 | mirror doubles the array symmetrically | Signal | reverse and append | list lemmas | partial |
| C58 | All acorr methods agree | Fourier | five algorithms: loops, numpy correlate, Fortran, FFT | finite sums; convolution theorem | proved |
| C59 | signal.smooth is a normalised moving average of same length | Smooth | extended signal and convolution | sums; index arithmetic | partial |
| C60 | find_peaks finds the local maxima above ymin | Signal | loop with comparisons | loop invariant | partial |
| C61 | fftsample modes are inverse | Signal | sampling formulas | field algebra | proved |
| C62 | dft reference | Fourier | discrete Fourier transform | roots of unity | proved |
| C63 | VACF implementations agree for every thread schedule | Pydos | Fortran loops; threads as interleavings of loads and stores | schedule independence by commuting private stores | proved |
| C64 | Direct and VACF PDOS are the same spectrum | Pdos | spectra as sums over atoms | Fourier identities (Wiener-Khinchin) | proved |
| C65 | scale / odd / welch helpers | Signal | small formulas | algebra | proved |
| C66 | Harmonic thermodynamics: E = F + T S | Thermo, Thermo2 | the methods of HarmonicThermo for one temperature, with any integration rule which is a weighted sum | algebra with exp and log; derivatives and limits under the sum | proved |
| C67 | skipfreq drops exactly the small frequencies | Thermo | filter | list lemmas | proved |
| C68 | Gibbs grids | Gibbs | grids of arrays, fits as functions | index arithmetic | partial |
| C69 | Vinet EOS derivatives | Eos | formula over the reals | `HasDerivAt` | partial |
| C70 | EosFit rejects parabola minima outside the data | Eos | parabola from least squares | algebra | partial |
| C71 | RBF interpolation and derivatives | Rbf | kernel matrices; solvers as any solution | positive definiteness (Bernstein/Micchelli type arguments); `HasFDerivAt` | partial |
| C72 | ibrav2cell cells | Ibrav | matrices from celldm | matrix algebra | proved |
| C73 | read_matdyn_freq restores k-points and frequencies | PwText | words of a file | induction over records | partial |
| C74 | write_h5/read_h5 round trip and append safety | H5 | tree of groups | round trip by induction | proved |
| C75 | write_xyz layout | PwText | words of a file | induction over atoms and steps | proved |
| C76 | kpoints strings | PwText | texts | induction over characters | partial |
| C77 | DataND/meshgridt/2d helpers keep data aligned | Num2 | meshes and tables | index arithmetic | partial |
| C78 | rpdf does not modify its arguments | Rpdf | lists of the caller as mutable cells | case analysis of the calls | partial |
| C79 | angles are symmetric and in range | Neigh | acos of normalised products | inequalities | partial |
| C80 | Nose-Hoover masses have the chain length | Ibrav | list of masses | list lemmas | proved |
| C81 | sliceput writes exactly the selected entries | SliceView, Sliceput | n-dimensional arrays, indices | equality of index functions | partial |
| C82 | The distance matrix is a metric table | Pbc | table of distances | metric axioms; counterexample with pbc | partial |
| C83 | Periodic table numbers | AtomicData | table of elements | the whole table is evaluated by the kernel; lookup by induction | partial |
| C84 | write_axsf layout | PwText | words of a file | induction over steps | proved |
| C85 | Input file blocks from arrays | PwText | words of a file | induction over rows | proved |
| C86 | The units of a parser do not depend on parsers created before | ParserUnits | dicts shared by classes | histories of constructor calls | partial |
| C87 | pw.x MD parser returns values which belong together | PwOut, PwOut2 | lines of an output; grep and awk pipelines | induction over blocks | partial |
| C88 | pw.x MD parser honours the units in block headers | PwOut | lines of an output | induction over blocks | partial |
| C89 | LAMMPS output: arrays come from the named columns, for every frame and every run | Lammps, ParserShape | dump and log files | induction over frames and runs | partial |
| C90 | CP2K output: arrays come from the extra files, one entry per step, also for killed and relaxation runs | Cp2k, ParserShape | extra files | induction over rows | partial |
| C91 | CPMD output: arrays come from the extra files, for every run type and every history of restarts | Cpmd | extra files, restarts | induction over rows | partial |
| C92 | Random structures respect their ranges and keep atoms apart | RandomStruct | random numbers as arbitrary input streams | loop invariant for any stream | partial |
| C93 | Derived attributes of structures and trajectories are complete and fit together | Derived, DerivedEx, DerivedMain, ReadMd | getters of Structure and Trajectory | case analysis of given attributes; algebra | partial |
| C94 | Phonon frequencies and mode vectors are read completely and in order | PhononMain, PhononUnit | mode files | induction over k-points, modes, atoms | partial |
| C95 | Distance matrices of a trajectory do not depend on the thread schedule | DistTraj | threads as interleavings | schedule independence | proved |
| C96 | RMSD against a reference step is exact and does not depend on the frame of reference | Rmsd | sums of squares | algebra; invariance under rigid shifts | proved |
| C97 | The structure of neighbours contains the neighbours and the central atom, in order | Rmsd | selection of atoms | list lemmas | partial |
| C98 | Calculators do not influence each other | Calc | class-level dict as shared state | histories of constructor calls | partial |
| C99 | Input files of calculators contain the right pseudopotentials and values | Calc | texts; `str.format` | induction | partial |
| C100 | Cutting output files at a step keeps exactly the earlier steps | CutScripts | sed commands on lines | induction over steps | partial |
| C101 | LAMMPS input describes the same structure, and results are those of the structure | LmpData | numbers of the data file; rotation of the cell | matrix algebra | partial |
| C102 | Convergence tables list the differences in order | ConvTable | columns of differences | induction over rows | proved |
| C103 | CIF files are read in order and round trip | Cif | data block of a CIF file | round trip by induction over atoms | partial |
| C104 | fit_opt uses the settings of the caller, every time | Alias | dict of the caller as shared state | histories of calls | partial |
| C105 | Copies share nothing with the original; compress leaves the original alone | Alias | heap with addresses | separation invariant: new addresses only | proved |
| C106 | Comparison of structures and conversion to and from spglib | Symm | comparison with tolerances; table of elements | case analysis | partial |
| C107 | Files opened by reading functions are closed | Alias | event lists | case analysis | partial |
| C108 | coord_trans works along any axis of arrays of any rank | CoordNd | n-dimensional arrays | equality of index functions; matrix algebra | partial |
| C109 | Roots, minima and inverse of 1d fits | Fit1D | solvers as functions with the documented contract | intermediate values, convexity | partial |
| C110 | CP2K single point outputs | ScfOut | lines of an output; sed ranges | induction over lines | partial |
| C111 | CPMD single point outputs | ScfOut | lines of an output; grep -A and tail | induction over lines | proved |
| C112 | Convergence flags | ScfOut | lines of an output | search for texts | partial |
| C113 | Data2D keeps all forms of a 2d grid and its values consistent | Data2D | Model/Data2D.lean: attributes as options, the steps of _update in order | case analysis on the form of input; a list lemma on first occurrences in a mesh | partial |
| C114 | Fit of an equation of state with an external program | ExternEos | Model/ExternEos.lean: attributes as options which are set once, splines and the program as functions | computation of the state after fit; a history lemma for the second call | partial |
| C115 | file_template_replace does not lose the file | FileRepl | Model/FileRepl.lean: the file operations as steps on a file system | the state after any prefix of the steps | partial |
| C116 | Cross validation errors of Rbf do not use test data for training | CrossVal | Model/CrossVal.lean: the loop over splits on an array with arbitrary initial content | induction over the splits | partial |
| C117 | The header of array text files survives writing and reading | ArrHeader | Model/ArrHeader.lean: lines of text, strip, the relevant part of ConfigParser | induction over sections and options; lemmas on strip | proved |
| C118 | Frames averaged by vmd_measure_gofr | Gofr | `vmd_measure_gofr` (crys.py:1715-1800): the check of the angles, rmax, the slice of the coordinates and the cell which is written; VMD is any function of the frames it loops over. | The numpy slice and the loop of VMD are shown to give the same frames (`EveryNth`) by arithmetic on the number of entries. For variable cells with the default `slicefirst=True` the property is false (all frames get the first cell): `C118_variable_cell`, `C118_counterexample`. | partial |
| C119 | Header of a pw.x output | PwHead | Model/PwHead.lean: the grep/sed/awk pipelines of the header getters; greedy `.*` is the last occurrence | a lemma on last occurrences, then the form of each line | proved |
| C120 | Tables of MD outputs of pw.x | PwHead | Model/PwHead.lean: unit factors, vc-md table, numbers of iterations | induction over a file as an interleaving of lines of the format and other lines; counterexamples for aborted runs and for the numbers of iterations | partial |
| C121 | Debye function and thermal expansion | Debye | Model/Debye.lean: the trapezoidal rule on the grid, real numbers | the trapezoidal error theorem of Mathlib with a bound of the second derivative of the integrand, bounds of the integral near zero | proved |
| C122 | read_pw_scf returns the structure of the file in standard units | PwRead | `PwSCFOutputFile` getters, `parse`, `get_cont` and unit handling composed into `readPwScf`, on the text of the file (Model/PwRead, on top of PwHead, PwOut, ParserUnits, Traj). | Composition of C86, C87, C119, C120 for files described by `IsPwScf`; no new parsing lemma is needed. The getters of the container which fill in further attributes are arbitrary. | proved |
| C123 | Forces, atoms, time step and run type in CP2K output files | Cp2kOut | `Cp2kMDOutputFile._get_forces_from_outfile`, `get_natoms`, `get_timestep`, `_get_run_type` on the lines of the file, with `tr -s` and `cut -f5-` (Model/Cp2kOut). | `squeeze` and `cut` lemmas on a row, the `pick` calculus of `grep -A` (Props/Grep) by induction over the tables, `trajFromTxt_eq` for the reshape. | proved |
| C124 | sgroup reads what write_wien_sgroup writes | Sgroup | `wien_sgroup_input` as text (Model/Sgroup); a reader after the README quoted in the docstring is the specification (Spec/Sgroup). | Words of a text without comments, by induction over the atoms; numbers are written by any function which can be read back. | proved |
| C125 | Temperature zero, zero frequencies and NaNs in HarmonicThermo | ThermoNan | The four methods of `HarmonicThermo` and `_integrate` with `fixnan` and `nanfill` on numbers which are real, infinite or NaN, with the rules of IEEE 754 for them (Model/ThermoNan); no rounding, no overflow, zeros without sign. | The integrand at one point is evaluated for T > 0, T = 0, f > 0, f = 0, f < 0; induction over the points for the trapezoidal rule; a value which is not finite makes the integral not finite. Refines Model/Thermo for T > 0. | partial |
| C126 | fft_1d_loop is the discrete Fourier transform along the requested axis | FftLoop | `fft_1d_loop` on n-dimensional arrays as functions on index tuples, the uninitialised output array is arbitrary (Model/FftLoop, on top of NdArray and Signal). | Invariant of the loop over index tuples: a place holds its value if the tuple of its line has been visited; `itertools.product` visits all of them. | partial |
| C127 | read_pw_md returns the trajectory in a pw.x output | PwMd | `PwMDOutputFile` getters including `get_ekin`, `get_temperature`, `get_timestep` on the text of the file, `parse`, `get_traj`, unit handling and the extension of the cell, composed into `readPwMd` (Model/PwMd, on top of PwHead, PwOut, ParserUnits, Traj). | Composition of C86, C87, C88, C119, C120 for files described by `IsPwMd` and `PwCells`; new lemmas for the sed expressions of temperature and time step. `C127_with_scf` combines it with C122. | proved |
| C128 | pbc_wrap on structures and trajectories which share memory | PbcObj | Memory as a table of slabs (one per step), objects as lists of addresses; the constructor, `__getitem__` (views), `copy` and `pbc_wrap` as transitions. | Invariant over all histories: addresses are in use and slabs of coords and coords_frac are never mixed. `C128_consistent_partial` and `C128_persistent_partial` for histories without in-place wrapping, `C128_result` for the result after any history, `C128_unshared_partial` for in-place wrapping without sharing; counterexamples for views and for missing cells. | partial |
| C129 | read_cp2k_md and read_cp2k_relax return what is in the files of the run | Cp2kRead | `Cp2kMDOutputFile.parse`/`Cp2kRelaxOutputFile.parse` (all getters in the order of `attr_lst`, first exception ends) on the set of files which exist, then `get_traj` (`ReadMd.toTraj`: unit factors over any history of parsers, extension of the cell, getters) | composition of C90, C123, C86 and the container theorems; counterexamples: a table with one row cannot be read, files written in different steps give attributes of different length without an error | partial |
| C130 | read_lammps_md_txt returns what is in the files | LammpsRead | `LammpsTextMDOutputFile.parse` (all getters in the order of `attr_lst`, including `get_timestep` and the three sources of symbols) on log file, dump file and symbols file, then `get_traj` (`ReadMd.toTraj`) | composition of C89, C86 and the container theorems; counterexamples: two `run` commands shift temperatures by one step, no `timestep` command or a comment behind it, no symbols, an indented table header, the volume and user units for lengths | partial |
| C131 | read_cpmd_md returns what is in the files | CpmdRead | `CpmdMDOutputFile.parse` (all getters in the order of `attr_lst`, including `_get_scale_file`, `get_timestep`) on the set of files which exist, then `get_traj` (`ReadMd.toTraj`) | composition of C91, C111, C86 and the container theorems; counterexamples: a table ENERGIES with one row, an output file to which a second run was appended, files written in different steps | partial |
| C132 | read_pw_vcmd returns what is in the file | PwVcMd | `PwVCMDOutputFile.parse` (the getters of `PwMDOutputFile` with two overridden, `econst` at the end), then `get_traj` (`ReadMd.toTraj`) | composition of C120, C127 (`parseWith_eq`, `cell_eq`), C86; rows are appended over the parts of the file by induction; counterexample: no such row | partial |
| C133 | read_cpmd_scf returns what is in the files | CpmdScfRead | `CpmdSCFOutputFile.parse` (ten getters in order, `Model/CpmdScfRead`), `get_struct`, `Structure.get_coords` | composition of C111, C91, C86 and the container theorems; counterexample: a line without a number before the message about the restart file | partial |
| C134 | read_cp2k_scf returns what is in the output | Cp2kScfRead | `Cp2kSCFOutputFile.parse`, `get_struct`, class level unit dictionaries | composition of C110, C86; the exact factor of the stress for every history, by induction; counterexamples: history, no stress tensor, appended output | partial |
| C135 | the dcd readers return what is in the files | DcdRead, DcdReadEx | `Cp2kDcdMDOutputFile.parse`, `LammpsDcdMDOutputFile.parse`, `DcdOutputFile`, the container and its `get_cell` | composition of C33, C90, C88, C89, C86 and the container theorems; equality of the cells over the real numbers from the geometry of the box (C01); counterexamples: one row tables, two `run` commands | partial |
| C136 | read_pdb returns every atom and the cell of a PDB file | Pdb | a backtracking matcher for the regular expressions of `PDBFile` (`re.finditer`, `re.search`, groups), the getters, the container | the first match of the greedy expression is followed through all backtracking steps for every record; induction over the records; counterexamples: no CRYST1, negative residue number, touching columns, primes in names, wide cell, no atoms | partial |
| C137 | The input files made by cif2any describe the crystal of the CIF file | Cif2any | the printed text of the four sections of `cif2any.py` (PWscf, ABINIT, CPMD, CP2K) and, as specification, what these programs read from their input | words and lines of the text are computed for every structure; CPMD atoms are a permutation with order kept within a species (C53); the numbers over the reals by C41 and C42 and the homogeneity of `cc2cell`; counterexample: `znucl` has one entry per atom instead of one per type, so ABINIT reads wurtzite AlN as four Al atoms | partial |
| C138 | The conversion scripts keep the crystal | Convert | `read_cif` with units and container, the attributes `set_all` computes, and the three scripts as compositions of the reader and writer models | composition of C103 (generalised to rounded numbers and labels), C124 (generalised to rounded numbers), C136, C93, C39, C41 and the container theorem; the coordinates of `pdb2cif.py` by inverting the cell | proved |
| C139 | Structure and ASE Atoms convert into each other | Ase | `get_ase_atoms`, `atoms2struct`, `FakeASEAtoms`; of ASE the stored arrays and `get_scaled_positions` with its wrapping | from C93 (all attributes fit together) and C39, with uniqueness of lattice constants of a cell; `pbc` by the fractional part | proved |
| C140 | Tables of SQLiteDB stay, and query helpers return what is stored | SqlQuery | a database as named tables (of C12) with the current table, the methods on them, and `get_list1d`/`get_single` through `common.flatten` on the Python values of the result | induction over the history (tables are never lost, via C12; created exactly by a successful `create_table`), and over the rows of a result; counterexample for BLOBs, which `flatten` takes apart | partial |
| C141 | Fit functions and calculations of a Gibbs object do not depend on its history | GibbsHist | the object of C68 with its fit functions and the stored axis fits as state; `set_fitfunc`, `_set_fitax` and the calculations as steps | induction over the history: the state is determined by the functions set last, and the axis function set before the first calculation; counterexample: `1d-ax` set later has no effect | partial |
| C142 | matdyn2fqha.py writes a file which F_QHA reads as the DOS it was given | Fqha | the script as a function of the text of the file, with `np.loadtxt` of C90 and the quadrature as a function | lines of the output are two header lines and the lines of the file; counting rows; counterexample for files with comment lines, which are printed but not counted | partial |
| C143 | Gathered results are in the row of their own calculation, also when the study is extended or a gather script is interrupted | Gather | the gather scripts of the examples as lists of effects on the world of C15 (columns, updates in the open transaction, commit), with the results as a function of the number; histories mix them with `write_input` | a gathered result is an additional last entry in the parameter set of its row, so the invariant of C15 is kept by each update; induction over the life of the study; prefixes of the effects for interruptions | proved |
| C144 | All methods of parsers and containers answer the same after any history of calls | GettersLife | the methods of FlexibleGetters on top of the getters of C09, histories as lists of calls; raw_return and raw_slice_get with the slicing of C24 | invariant: given values are there and every value there is the right one; induction over the recursion of the getters, then over the history; counterexample for raw arrays of shape (1,) | partial |
| C145 | Positions of peaks from splines | Peaks | `find_peaks` with an x axis: slices around the peaks, spline through the negative values, `get_min`; the spline is a parameter with `GoodSpline` (interpolation, continuous slope, number of points), brentq as in C109 | Python slices around a peak; mean value theorem for convex splines and the strict peak; general theorem that peaks closer than spread to the first point make the call raise; counterexample with the position of another peak | partial |
| C146 | The default placeholders exist in every parameter study | ReplKeys | `default_repl_keys` as a run of the modelled `write_input` (C15) on an empty directory, reading the header of the table; the records and templates of C19, `template_replace` of C04 | the run is evaluated step by step; general theorems about the record of any study; the text follows from C04 for unambiguous rules, with a decidable check of unambiguity; counterexample: a parameter named id destroys XXXIDX | partial |
| C147 | Labels of a dispersion plot sit at their k-points | Dispersion | `SpecialPointsPath` and `plot_dis` with a figure as the record of what is drawn (curves, lines, ticks with labels, range, second axes); `kpath` and `get_path_norm` of C21, C22; matplotlib by the conditions under which its calls raise | the way along equally divided segments is as long as the way along the vertices (induction over segments and points); general theorems that calls without special points, without fractional coordinates or without symbols raise | partial |
| C148 | Comparison of nested values says equal exactly for equal values | Compare | the comparison functions of `test/tools.py` on values None, int, float, str, array, dict (nested); numpy broadcasting, comparison of arrays with other types and the truth of arrays written out | induction over the nesting; generic soundness and completeness for a comparison function of leaves, then for the exact and the tolerant one; counterexamples for broadcast shapes, numbers and arrays, strict and keywords in nested dicts | partial |
| C149 | Distances do not depend on backend or threads, estimated widths are lengths | Dists | `num.distsq`, the OpenMP loop of `flib.distsq` as a machine with any number of threads and any schedule, `_np_distsq` with broadcasting, `squared_dists`, `euclidean_dists`, `estimate_p`, `Rbf.__init__` with a string for `p`; scipy `cdist` by its documentation | the generic theorem about parallel loops whose iterations write different addresses; algebra of maxima, sums and powers for the estimates; uniqueness of the solution of the linear system for the invariance of the models; counterexample for JAX and one-dimensional points | partial |
| C150 | Cutting trajectories in a directory: complete runs, backups, crashes, second runs | CutDir | the commands of `bin/cut-cp2k.sh` and `bin/cut-cpmd.sh` as lists of atomic effects on a directory (sed writes a temporary file, renames the file to .bak, renames the temporary file), crashes after any number of effects, the lookup of the step in the restart file | invariant over the effects: every version of a file is obtained from the original by commands which do not change the final result; symbolic execution for complete runs; counterexamples for the gap between the two renames, for second runs and backups, for TRAJEC.xyz, for a missing position file and a missing STEP_START_VAL | partial |
| C151 | poly_str writes the polynomial that polyval evaluates | PolyStr | `poly_str` as the loop over `poly_powers` with `%i` formatting; the spec is a reader of formulas (cut at plus signs and stars, decimal numbers, names without value have no meaning) | cutting undoes joining because no term contains the separators; decimal numbers are read back; the sum over the summands is the dot product of the Vandermonde row with the coefficients | proved |
| C152 | inner_points_mask removes edge points | InnerPts | `inner_points_mask` with the 1d branch and `Delaunay(points).convex_hull` as a parameter; edge points by supporting directions, Mathlib's `convexHull` | sorted lists lie in the segment between their ends; in more dimensions from the assumption that the facets returned span the hull; counterexample for equal end points | proved |
| C153 | Plot styles: shared iterators and colour transitions | Styles | the module-level iterators of `mpl.py` as shared state with long and short names, `next` for list iterators and `itertools.cycle`; `smooth_color`, `smooth_color_func` | invariant over histories: what is left of each iterator depends only on the number of draws from it; modular arithmetic for the cycles | proved |
| C154 | Legends of several axes and plots by name | Styles | `collect_legends` on the pairs returned by the axes, `prepare_plots` as building an ordered dictionary | induction over the axes and over the names | proved |
| C155 | The RPDF does not depend on the supercell | RpdfScell | no new model: `rpdf` of C52 applied to the result of `scell` of C34 | distances below the radius of `rmax_smith` are counted as periodic images; division with remainder by the dimensions gives a bijection between the images in the supercell and copies of the images in the cell; `rmax_smith` does not shrink | partial |
| C156 | Distances and RPDF do not depend on how the crystal is described | Invariance | no new model: `distances`, `pbc_wrap_coords` and `rpdf` | the minimum image depends only on the class modulo 1; orthogonal matrices keep scalar products, so lengths, widths (Lagrange identity) and the volume; counting over a permutation | proved |
| C157 | Laws of thermodynamics for HarmonicThermo | ThermoLaws | no new model: `evib`, `fvib`, `svib`, `cv` of C66 with an abstract linear integration rule | limits of one mode at infinity by comparison with exponentials, then a finite sum over the axis; derivative relations of C66 give signs of slopes and the mean value theorem gives monotonicity | proved |
| C158 | VACF and PDOS do not depend on units, orientation, order, copies and direction of time | PdosInv | no new model: `pyvacf`, `fvacf`, `pdos` of C63 and C64 | correlation and power spectrum are sums over pairs of times of the mass weighted scalar product times a weight; each symmetry keeps the scalar products up to a factor (or reverses both times, and the Welch window is symmetric); `norm_int` removes the factor | proved |
| C159 | RBF models do not depend on origin, axes, order and units of the data and are linear in the values | RbfInv | no new model: `Rbf` of C71 | kernels see only distances; non-singularity from C71 gives uniqueness of the weights, so permuted, scaled or combined weights are the fitted ones | proved |
| C160 | Polynomial fits do not depend on scaling, order and units, and are linear in the values | PolyInv | no new model: `polyfit`, `polyval` of C28 | optimality (C28) implies that residuals are orthogonal to all polynomials; orthogonality is linear and, if the points determine polynomials, has one solution; grids by the combinatorial Nullstellensatz of Mathlib | proved |
| C161 | Lattice constants are enough for all distances; angles and neighbours do not depend on the description of the crystal | StructNeigh | `angles` and `nearest_neighbors` of a structure (Model/StructNeigh), built from C37, C45, C79 | the rebuilt cell is the old one times an orthogonal matrix (C41); distances depend on the minimum image only (C156); two sorted permutations of the same numbers are equal | proved |
| C162 | A supercell describes the same crystal, and supercells can be built in steps | ScellAlg | no new model: `scell` of C34; Spec: list of atoms and infinite crystal of a structure | integer division with remainder in blocks of positive and negative dimensions; the blocks of the two steps together list the block of the products without repetition; counterexample for negative second dimensions | proved |
| C163 | The drawing helpers draw what is asked for, and only that | MplPlot | `plotlines3d` with 1d and 2d arguments, `color_ax` on a table of colours, `savefig`, `new_axis` on the box of the host axis with the six digit rounding (Model/MplPlot); matplotlib itself is not modelled | list lemmas; induction over the calls of `new_axis` with an error bound for the rounding; counterexamples: 1d `z` and `axis="both"` always fail although documented | partial |
| C164 | Volumes, enthalpies and bulk moduli under pressure are thermodynamically consistent | GibbsPress | `_default_fit_1d_G` = `PolyFit1D(deg=5, scale=True)` with `get_min` (root of the first derivative by brentq) as a relation `DefaultFit`; the model of `calc_H`/`calc_G` of C68 | existence of least squares solutions (orthogonal projection); the fit of `E + PV` is the fit of `E` plus `PV` (orthogonality and uniqueness, C160); derivative of `polyval` (C28); tangents of convex functions (mean value theorem) | proved |
| C165 | The parameters of the Vinet equation of state have their physical meaning, and fits do not depend on units | EosPhys | the model of `Vinet` and `EosFit` of C69 with `lst2dct`/`dct2lst` (Model/Eos); Spec: sum of squares and its minimisers | derivatives of the closed forms, sign of the quadratic factor of the second derivative, intermediate value theorem for the pressure, uniqueness of derivatives; scaling of the sum of squares | proved |
| C166 | Phonon densities of states of harmonic motions are lines at the frequencies of the modes; spectra exist and are not negative | PdosMode | the model of `pydos` of C63/C64; Spec: velocities of a sum of modes and the weights of the modes | orthogonality of the exponentials; a polynomial of degree n-1 with n roots is zero, so a motion is seen at one of the frequencies kept; positive weights of the Simpson rule on a uniform grid; Cauchy-Schwarz for the VACF | proved |
| C167 | A larger regularisation parameter r gives stiffer Rbf models which are never closer to the data; r > 0 always gives a model | RbfReg | the model of `Rbf` of C71; Spec: squared deviations and bending | completing the square in the regularised functional with the positive semidefinite kernel matrix (C71); exchange of the two minimisers for monotony; counterexample: with the multiquadric the system is singular for some r > 0 | partial |
| C168 | signal.smooth: within the data, linear, independent of the direction, straight lines stay | SmoothShape | the model of `signal.smooth` of C59; Spec: windows, centre of mass of a kernel, lines | the closed form of C59 as a convex combination; naturality of slices, padding and convolution in linear maps; counterexample: a kernel longer than the mirrored data (zeros are added) | partial |
| C169 | crys.smooth smooths every time series of a trajectory and keeps it consistent | TrajSmooth | `crys.smooth` (Model/TrajSmooth.lean): the loops over attributes and columns with arrays of unknown contents, both methods | invariant of the column loops, linear maps of C168 (components; coords_frac to coords with a fixed cell); counterexamples: changing cell, times at the ends | partial |
| C170 | Viewers show the object and leave nothing behind | View | `ViewFactory.__call__`, `common.system` (Model/View.lean) on a state with files, descriptors, the object and the executed commands; the shell, the writers and the random part of names are opaque | case analysis over all ends of a call; induction over the number of calls for descriptors; counterexamples for bg, failing viewers, descriptors and objects without symbols | partial |
| C171 | One interface for all interpolators of 2d data | Interpol | `Interpol2D.__init__`, `__call__`, `get_min` (Model/Interpol.lean) over the Rbf model of C71; scipy interpolators, PolyFit, solvers and fmin are opaque | case analysis of the input; C71 (regular Gram matrices) for the rbf kinds; first position of the smallest value for get_min; counterexample: values that are all zero | partial |
| C172 | Digital filters do to a signal what their frequency response says | Fir | `FIRFilter` (Model/Fir.lean): lfilter and freqz by their defining sums, firwin and kaiserord opaque (symmetric coefficients, normalised in the pass band) | sums over shifted indices; the sine part of symmetric coefficients is zero by reflection of the sum; counterexample: mode bandstop always raises | partial |
| C173 | What is in the database file after the end, an error or a kill | SqlTx | the methods of `SQLiteDB` that run statements (Model/SqlTx.lean) on a file, a view and a transaction, with the rules of the sqlite3 module; databases and statements are arbitrary | each state of the trace keeps the file or copies the view to it, by induction over programs; counterexample: attach_column killed between ALTER TABLE and the values | partial |
| C174 | Velocities from positions are those of the motion; RMSD is a distance | Velocity | the models of C46 and C96 (Model/Pbc.lean, Model/DistTraj.lean) | mean value inequality three times for the error; naturality of zip and slices; telescoping; Minkowski inequality | proved |
| C175 | Classical limit of the harmonic thermodynamics | Classical | HarmonicThermo as in C66 and C67 (Model/Thermo), exact arithmetic | monotonicity of sinh(x)/x, bounds of the Langevin function and of log(sinh(y)/y), limits under a weighted sum, homogeneity of the rule for the units | proved |
| C176 | Dumped objects can be read back, also after histories of dumps and kills | Dump | dump, load, read_pickle, makedirs as sequences of changes of a disk of directories and files (Model/Dump); pickle is a pair of functions of which only restoring, incomplete and empty data are used | case analysis of the call, prefixes of the sequence of changes for kills, induction over histories; a counterexample for objects which cannot be pickled | partial |
| C177 | What transforms and autocorrelations say about a signal | Spectrum | dft, ezfft, acorr as in C58 and C62 (Model/Signal), exact arithmetic | orthogonality of the exponentials, reindexing of double sums by differences, induction over shifts | proved |
| C178 | What solvate.sh makes of its input, and which files it touches | Solvate | the script on a directory of files, gmx, pdb2cif.py and cif2any.py as functions which may fail (Model/Solvate) | case analysis of the steps, lemmas on occurrences of texts; counterexamples for an input called water.pdb, logs, failures of gmx and names with -h | partial |
| C179 | Rbf gives the same models with and without jax | RbfJax | _solve, fit, deriv_jax and __call__ in both modes (Model/RbfJax), with a Cholesky solver, a symmetric solver and automatic differentiation as specified parameters | positive definiteness of the matrices of Gaussians and inverse multiquadrics (C71), uniqueness of solutions and gradients; a quadratic form of two points for multiquadrics | partial |
| C180 | Names of files and directories in shell commands are names | Shell | splitting of commands into words and operators by /bin/sh with quotes and backslashes, rm -r on a set of names, backtick, and commands of parsers, viewers and write_input (Model/Shell) | induction over the text for all states of the lexer; a count of characters for the converse; counterexamples for blanks and semicolons | partial |
| C181 | The start script submits each calculation once, in its directory | RunSh | the text of run.sh, its splitting by the shell (Model/Shell), and the execution of lists with &&, cd, sleep and submissions on a set of directories (Model/RunSh) | the words of a line by C180_words; induction over the numbers; general counterexamples for a failed submission and for a blank in the name of the directory | partial |
| C182 | Alignment of structures and trajectories to new axes | AlignObj | align_cart with its arguments and Python indices for structures and trajectories (Model/AlignObj), on top of cartFrom and frac2cart of Model/Cell | orthogonality of the system from perpendicular vectors (C54), bounds of entries of C(C^T - C^-1) for the rejection, a determinant for the disabled check | proved |
| C183 | Derivatives, minima and roots of splines through data | SplineDeriv | deriv_spl, Spline.__init__, findmin and findroot (Model/SplineDeriv) with splrep as a specified parameter: order, interpolation, reproduction of polynomials (met by one interpolating polynomial) | unfolding with the specification of splrep; the bracketed root finder of C109 | proved |
| C184 | order_similar untangles bands | OrderSimilar | order_similar (Model/Num), against bands as functions of row and column and their extrapolation (Spec/OrderSimilar) | induction over the rows with the rows built so far equal to those of the bands; the nearest point by the minimality of argmin (C27); a general counterexample for orders 0 and 1 from the reference value which is never renewed | partial |
| C185 | Files of structures for LAMMPS and the symbols which runs get from them | WriteLmp | write_lammps as a sequence of states of a disk of named files, os.path.dirname and os.path.join on texts, the symbols file of the readers (Model/WriteLmp) | dirname and join are inverse on names in a directory; prefixes of the sequence are the crash points; general counterexamples for two structures in one directory, for a killed call and for a data file with the name of the symbols file | partial |
| C186 | Grids for convergence studies | KGrid | grid_in_cell, kgrid, recip_cell (Model/Cell), np.round with halves to even | monotony of np.round; norms of the dual basis of a stretched and of a rotated cell | proved |
| C187 | plot_dispersion.py draws the dispersion in the file | PlotDisp | the script with its arguments on a set of files (Model/PlotDisp), on top of read_matdyn_freq (Model/PwText) and get_path_norm (Model/Num); plt.plot gives the list of curves | composition of C73 and C22; a general counterexample for truncated files | partial |
| C188 | Normalising an array makes its largest value 1 | Normalize | num.normalize on real and on complex arrays with the order of complex numbers of numpy (Model/Normalize) | the largest entry is a member and an upper bound; the result is the only array with these properties; counterexamples for negative maxima and for complex arrays | partial |
| C189 | fullpath names the same place from everywhere | FullPath | fullpath and fullpathjoin on top of posix expanduser, join, normpath and abspath on texts (Model/FullPath) | splitting at slashes is a homomorphism; the loop of normpath is a walk in the tree, by induction with the invariant that no ".." is kept; links are not modelled | proved |

Where the unchanged code violates a property the negation is proved with a
concrete witness, a `_partial` theorem states what does hold, and the
disagreement is listed in section 4.

## 4. Disagreements between property and code, and other partial results

* **C04** (template_replace is simultaneous substitution). Proved for dicts which are unambiguous for the text (no key inside another key or inside an inserted value). The unrestricted claim is false: C04_order_counterexample, C04_prefix_counterexample.
* **C08** (Documented string inputs of tobool, toslice, ffloat are accepted). False for every text input: C08_strings_rejected. Proved for booleans and integers.
* **C13** (fill_column / attach_column write exactly the requested rows or nothing). Proved for tables with rows 1..n and a start row at most one beyond the end; no cell that is not NULL is ever overwritten. False: all-or-nothing (C13_not_atomic), start row beyond the end (C13_start_beyond_end), deleted rows (C13_deleted_row), empty tables (C13_empty_table).
* **C17** (A crash in write_input does not make two calculations share a directory). The property is false: C17_shared_directory and C17_shared_after_exception are counterexamples. Proved: directories of committed rows are safe.
* **C18** (excl_push lists exactly the old calculations). Proved for the default table name calc and mode a. C18_stale and C18_other_table show that the full statement is false.
* **C19** (Parameter records: last key wins, all keys kept). Template and database records differ for the keys subcmd, scratch, home and hostname (C19_machine_key_differs).
* **C22** (get_path_norm measures arc length from the first point). Values, order and number are proved. False: the path does not start at 0 unless it starts at the origin (C22_start, C22_start_example).
* **C25** (num.sum sums over the requested axes). axis given as a tuple is right for sorted or unsorted non negative axes; C25_negative_tuple and C25_keepdims_negative are counterexamples for negative axes.
* **C27** (order_similar / round_up_next_multiple helpers). Rounding is proved; order_similar chooses the nearest value to the extrapolation (C27_order_similar_extrapolates), but need not return a permutation of the row (C27_order_similar_loses), and order=0 collapses the rows (C27_order_zero_collapses).
* **C32** (writetxt/readtxt restore arrays). Proved for arrays whose 2d form in the file has no axis of length 0 or 1. Otherwise axes are lost (C32_squeezed, C32_empty) or reading fails (C32_3d_refused, C32_counterexample).
* **C40** (recip_cell is the dual lattice). C40_products: the products are right for every regular cell. Duality with the sign +2 pi holds for right-handed cells only (C40_dual_partial, C40_left_handed).
* **C44** (grid_in_cell / kgrid point counts). C44_even_counterexample: even=True together with minpoints can return odd counts.
* **C45** (nearest_neighbors returns the nearest neighbours). False if the symbol of the central atom is skipped (C45_counterexample, C45_skip_own_symbol). argsort is any sorting permutation.
* **C47** (Unit factors are applied exactly once). Proved for containers in all call histories and for the first get_struct()/get_traj(). False for later calls of the same parser: C47_parser_again, C47_counterexample.
* **C49** (Iterating a trajectory visits every step once in order). Proved for complete, not nested loops. False after break (C49_break, C49_counterexample) and for nested loops, which never end (C49_nested) unless no step is left at their start (C49_nested_start).
* **C50** (concatenate joins trajectories). Proved if all parts have the same per-step quantities. False otherwise: C50_leftover, C50_counterexample.
* **C52** (rpdf counts pairs). False in one point: pairs closer than dr are never counted, because the first bin is set to zero (C52_counterexample). Everything else is proved, including that each pair has at most one image within rmax (C52_images).
* **C57** (mirror doubles the array symmetrically). C57_mirror_partial / C57_other_axis_raises: mirroring works along the first axis only.
* **C59** (signal.smooth is a normalised moving average of same length). C59_long_kernel: with edge='m' zeros enter if the kernel is longer than twice the data; proved for M/2 <= N-1. edge='c' proved for all lengths.
* **C60** (find_peaks finds the local maxima above ymin). Without ymin proved. With ymin peaks whose left neighbour is below ymin are lost (C60_ymin_partial says exactly which, C60_counterexample).
* **C68** (Gibbs grids). All entries and shapes are proved. False: Evib uses Svib in units of kb (C68_evib_counterexample). The fits are arbitrary functions.
* **C69** (Vinet EOS derivatives). Derivatives and pressure are proved. False: bulkmod returns B0 for every volume (C69_bulkmod_counterexample).
* **C70** (EosFit rejects parabola minima outside the data). Minima left of the data are refused. Minima right of the data are not (C70_counterexample).
* **C71** (RBF interpolation and derivatives). Proved for training values that are not all zero; for these the code gives nan (C71_zero_counterexample). Linear solvers are any function that returns a solution.
* **C73** (read_matdyn_freq restores k-points and frequencies). Complete files, and files with too many records, are proved. False: a truncated file is not refused and gives arbitrary rows (C73_truncated_counterexample).
* **C76** (kpoints strings). False for kpoints_str_pwin, which documents any sequence (C76_pwin_counterexample). Everything else is proved.
* **C77** (DataND/meshgridt/2d helpers keep data aligned). True for rows in the order written by meshgridt / itertools.product; C77_unordered shows that other row orders give wrong values.
* **C78** (rpdf does not modify its arguments). False: a call changes the lists of the caller (C78_counterexample); C78_trajs_kept and C78_amask_kept say which calls do not.
* **C79** (angles are symmetric and in range). False for deg=True and mask_val in [-1,0) (C79_mask_counterexample), which the assertion lets through.
* **C81** (sliceput writes exactly the selected entries). axis=None proved for scalars (C81_sliceput_all) and arrays (C81_array, C81_roundtrip). With axis=<int> the property is false: C81_sliceput_axis_raises (list of slices used as index, IndexError in numpy >= 1.23).
* **C82** (The distance matrix is a metric table). Symmetry is false with pbc for positions half a cell vector apart in a skew cell (C82_not_symmetric).
* **C83** (Periodic table numbers). Proved for all elements up to number 116; the last entry of the table (Uuo) has number 117 instead of 118 (C83_counterexample).
* **C86** (The units of a parser do not depend on parsers created before). Partial because the code violates the property: a cp2k MD parser changes the dictionary shared with the cp2k SCF parser (C86_counterexample); proved for everything else.
* **C87** (pw.x MD parser returns values which belong together). Partial because the code violates the property when the last position block has no energy (C87_killed_counterexample, e.g. test/files/pw.vc_relax.out) and raises when no forces are printed (C87_no_forces_counterexample). alat, _cell_2d and _cell_3d_factors are parameters.
* **C88** (pw.x MD parser honours the units in block headers). Partial because without a unit in the ATOMIC_POSITIONS header no coordinates are returned (C88_no_unit_counterexample).
* **C89** (LAMMPS output: arrays come from the named columns, for every frame and every run). Partial because the code violates the full property: C89_orthogonal_counterexample (every dump file of an orthogonal box makes get_cell raise ValueError), C89_thermo_counterexample (a second run with other columns is read with the header of the first one), C89_no_rows_counterexample (header without rows: TypeError). Frames, killed runs, symbols and triclinic cells are proved in full.
* **C90** (CP2K output: arrays come from the extra files, one entry per step, also for killed and relaxation runs). Partial because the code violates the full property for files with a single row: np.loadtxt returns a 1d array and all getters raise IndexError (C90_single_step_counterexample, C90_single_cell_counterexample). For at least two rows, and for xyz files, killed runs and relaxations the statements are proved in full.
* **C91** (CPMD output: arrays come from the extra files, for every run type and every history of restarts). Partial because the code violates the full property for an ENERGIES file with one row (IndexError, C91_single_row_counterexample) and for a trajectory with one atom and one step (AssertionError, C91_single_atom_counterexample). Everything else is proved in full.
* **C92** (Random structures respect their ranges and keep atoms apart). Partial because the code violates the full property: in skew cells the minimum image convention misses the closest periodic image (C92_close_counterexample, default settings, two atoms of any element), and wide angle ranges make the cell construction raise ValueError (C92_domain_counterexample). Proved: the ranges, and the distance bound up to the radius of the largest sphere for which minimum images are exact.
* **C93** (Derived attributes of structures and trajectories are complete and fit together). Structures: C93_struct_complete (for all inputs: nothing given is changed, everything that follows is set), C93_struct_consistent (good input gives attributes that agree), C93_idempotent, C93_restore. Trajectories: C93_traj_partial, each step as the structure built from that step, plus masses, times, velocities, kinetic energies and temperatures; partial because a trajectory with positions and a time step but only one or two steps cannot be built (C93_short_counterexample). Units are 1 (C05, C07 treat them).
* **C94** (Phonon frequencies and mode vectors are read completely and in order). All readers are proved for complete files; C94_counts and C94_wrong_natoms: incomplete files and wrong natoms raise in read_matdyn_modes. Missing: read_dynmat does not notice a dynmat.out which ends within the table (C94_short_counterexample: fewer frequencies than modes, no error). The sed expressions are modelled by their effect on a line.
* **C97** (The structure of neighbours contains the neighbours and the central atom, in order). Proved for idx >= 0. False for negative idx, which nearest_neighbors accepts: the central atom is then missing (C97_negative, C97_negative_counterexample).
* **C98** (Calculators do not influence each other). False: the class attribute default_parameters is updated in place. C98_fresh_partial holds for the first calculator of a process, C98_untouched_partial for keys no earlier call gave, C98_history says what later ones get, C98_poisoned: after a rejected xc every later call fails; C98_counterexample.
* **C99** (Input files of calculators contain the right pseudopotentials and values). pp as string, template and stress proved; pp as list is matched with startswith, so with Ca before C in the list C gets the file of Ca (C99_counterexample). C99_list_partial: right if no other name begins with the symbol.
* **C100** (Cutting output files at a step keeps exactly the earlier steps). Proved for all five kinds of files if the step is in the file. False if not (files written every n-th step): C100_absent (nothing is cut), C100_cpmd_xyz_absent (TRAJEC.xyz loses its last line), C100_absent_counterexample. Backup copies and runs in a directory are in C150.
* **C101** (LAMMPS input describes the same structure, and results are those of the structure). Written structure: proved for all cells. Energy: proved. Forces and stress: proved only if the cell of the user is already lower triangular (C101_forces_partial); false otherwise, because read_results does not rotate LAMMPS vectors back (C101_forces_counterexample).
* **C103** (CIF files are read in order and round trip). Proved for atoms in a loop_. False for a single atom outside of a loop_ (C103_single_counterexample): the text of the number is split into characters. The CIF grammar (PyCifRW) is not modelled.
* **C104** (fit_opt uses the settings of the caller, every time). The first call with a dict is proved; false for later calls (C104_later, C104_counterexample): start values, bounds and disp are popped from the dict of the caller.
* **C106** (Comparison of structures and conversion to and from spglib). Proved except symmetry in the arguments, which is false at the edge of the tolerance (C106_symm_counterexample). spglib is an arbitrary function.
* **C107** (Files opened by reading functions are closed). Proved for normal returns; false if the function raises (C107_exception).
* **C108** (coord_trans works along any axis of arrays of any rank). Proved for arrays of floats and all axes; false for arrays of integers (C108_integer_counterexample: results are truncated) and for timeaxis=-1 in coord_trans3d (C108_last_counterexample).
* **C109** (Roots, minima and inverse of 1d fits). get_root, invsplev: proved for any solver with the documented behaviour of brentq. get_min/get_max: proved for convex/concave curves, false otherwise (C109_min_counterexample). is_mono: characterised exactly, false for flat parts and between data points (C109_mono_counterexample). PolyFit1D: points (npoints,1) raise, one point gives a scalar (C109_init, C109_shape_counterexample).
* **C110** (CP2K single point outputs). Forces table (natoms, symbols, forces) for every output of the CP2K layout. Kinds of lines are described in Spec/ScfOut. Energy proved for outputs with exactly one line of energy (C110_etot_partial), the stress tensor for outputs with exactly one (C110_stress_partial). The code violates the property: two energies raise (C110_etot_twice), no stress tensor raises IndexError instead of giving None (C110_no_stress).
* **C112** (Convergence flags). pw.x: exactly the outputs with the message. CPMD: the flag only tests that the message of failure is absent, hence truncated and empty outputs are reported as converged (C112_cpmd_counterexample).
* **C113** (Data2D keeps all forms of a 2d grid and its values consistent). Proved for construction in all forms with or without values, for update with axes and Z, and for copy. False for update of an object with zz, or with xx,yy, XY or X,Y: these are ignored (C113_zz_ignored, C113_points_ignored, C113_counterexample). Grids with repeated points and ragged input are not covered.
* **C114** (Fit of an equation of state with an external program). Proved for the first fit of an object, for get_min and for units and normalisation. False for a second fit: the splines stay those of the first (C114_again, C114_counterexample), and set_bv_method after a fit mixes the methods (C114_switch); the list of get_min(behave='old') is in another order than documented (C114_old_order); volumes which are not in order are accepted (C114_sorted_counterexample). The program eos.x and splines are functions.
* **C115** (file_template_replace does not lose the file). Complete result, exceptions and all crash points with a backup suffix. Without backup (the default) a crash can lose the text: C115_counterexample. A write is modelled as growing character by character, which has all prefixes as crash points; loss of data in caches of the operating system is not modelled.
* **C116** (Cross validation errors of Rbf do not use test data for training). Rbf is an arbitrary function which builds models. The documentation for params=[p] does not hold: it uses r=0 (C116_one_parameter, C116_counterexample). The splitter of sklearn is any list of index pairs.
* **C118** (Frames averaged by vmd_measure_gofr). Proved for trajectories with one cell (both values of slicefirst) and for all trajectories with slicefirst=False. False for variable cells with the default slicefirst=True, where all frames get the cell of the first step: C118_variable_cell says exactly what happens, C118_counterexample is an instance. VMD is modelled as an arbitrary function of the frames.
* **C120** (Tables of MD outputs of pw.x). Unit factors: complete. vc-md table: proved for runs with at least one line; C120_vcmd_counterexample: without any line the getters raise a TypeError instead of returning None. Numbers of iterations: C120_nstep_scf says what is returned; C120_nstep_scf_counterexample: in MD outputs entry i does not belong to step i, as the start structure is left out of the energies but not here.
* **C125** (Temperature zero, zero frequencies and NaNs in HarmonicThermo). The code violates the property: at T=0 free energy and heat capacity are NaN for every DOS, with and without fixnan (C125_zero_counterexample), and with fixnan negative frequencies contribute to E but not to F and S (C125_negative_counterexample). Proved: T > 0 (C125_above_zero, C125_fixnan), and E and S at T=0 (C125_zero_partial).
* **C126** (fft_1d_loop is the discrete Fourier transform along the requested axis). The code violates the property for axes below -1: every negative axis is taken for the last one (C126_negative_axis, C126_counterexample). Proved for non-negative axes and -1 (C126_fft_along_partial).
* **C128** (pbc_wrap on structures and trajectories which share memory). Result of pbc_wrap proved after every history; other objects are unchanged and consistent after every history without copy=False, and for copy=False if the memory is not shared. False otherwise: tr[k] is a view, wrapping it in place leaves the trajectory with contradicting coords and coords_frac (C128_view_counterexample); without a cell pbc_wrap(copy=False) raises and drops coords (C128_lost_counterexample).
* **C129** (read_cp2k_md and read_cp2k_relax return what is in the files of the run). Tables with a single row (a run of one step) cannot be read (C129_single_row_counterexample), and files written at different intervals give attributes of different lengths without an error (C129_intervals_counterexample). Everything else holds.
* **C130** (read_lammps_md_txt returns what is in the files). Proved for logs with one table format and triclinic boxes. The code violates the rest: two `run` commands print a step twice in the log, and from there on entry k of the temperature belongs to step k-1 (C130_two_runs_counterexample); a log without a `timestep` command but with `... timesteps/s` in the summary, or a comment behind the time step, cannot be read; a type column without symbols raises KeyError; tables with an indented header (newer LAMMPS) cannot be read; the factor of the user for lengths does not apply to the volume.
* **C131** (read_cpmd_md returns what is in the files). Proved for tables with at least two rows. The code violates the rest: one row in ENERGIES raises IndexError (C131_single_row_counterexample); the time step printed twice, as in an output file to which a restart was appended, raises ValueError (C131_appended_counterexample); files written in different steps give attributes of different length without an error (C131_stride_counterexample).
* **C132** (read_pw_vcmd returns what is in the file). Proved for files with at least one row Ekin ... T ... Etot. Without one (killed in the first step) the code raises TypeError instead of returning a Trajectory without kinetic energies (C132_no_rows_counterexample).
* **C133** (read_cpmd_scf returns what is in the files). Proved for outputs in which the line two lines before the first message about the restart file is empty or begins with a number. Otherwise int(...) raises ValueError and nothing can be read (C133_restart_counterexample); an appended second output with k points raises ValueError too (C133_appended_counterexample).
* **C134** (read_cp2k_scf returns what is in the output). The code violates the property: after a cp2k MD, relax or dcd parser was created, the stress is 1e-4 of the printed one (C134_history_counterexample); an output without stress tensor raises IndexError (C134_no_stress_counterexample); an appended second output raises ValueError (C134_second_energy_counterexample). Proved for everything else.
* **C135** (the dcd readers return what is in the files). Proved for text tables with at least two rows and logs with one table format and one timestep command. The code violates the rest: with a table of energies of one row the CP2K run cannot be read (C135_single_row_counterexample); with two run commands in the LAMMPS log entry k of the temperature belongs to step k-1 (C135_two_runs_counterexample). C135_same_cell proves the claim in the docstring that both LAMMPS readers find identical cells, over the real numbers and for every positive length factor.
* **C136** (read_pdb returns every atom and the cell of a PDB file). Proved for records whose fields are separated by blanks, without special characters between the name and the coordinates, at least two blanks before the first coordinate and the first cell length, and a CRYST1 record. The code violates the rest: no CRYST1 record raises AttributeError although None is documented (C136_no_cell_counterexample), no atoms raise IndexError (C136_no_atoms_counterexample), a negative residue number is read as x (C136_residue_counterexample), full columns raise ValueError (C136_columns_counterexample), atoms with a prime in the name are left out silently (C136_prime_counterexample), a length of 1000 or more raises AttributeError (C136_wide_cell_counterexample).
* **C137** (The input files made by cif2any describe the crystal of the CIF file). Proved for CPMD, CP2K and PWscf (C137_cpmd, C137_cp2k, C137_pwscf) and the numbers (C137_numbers). For ABINIT C137_abinit says what is read, C137_abinit_partial gives the crystal when the first ntypat atoms have the different symbols in sorted order, and C137_abinit_counterexample shows that wurtzite AlN is read as four Al atoms, because znucl is printed per atom. Not covered: the k-point table and the notes.
* **C140** (Tables of SQLiteDB stay, and query helpers return what is stored). The statements about the query helpers exclude BLOB columns (C140_list_partial, C140_column_partial, C140_single_partial): C140_blob_counterexample shows that the bytes of BLOBs are returned as integers, all rows joined, and get_single raises. The statements about tables are complete. SQL text is not parsed; sqlite is modelled as in C12-C14.
* **C141** (Fit functions and calculations of a Gibbs object do not depend on its history). C141_history says exactly which functions are used. The property holds unless 1d-ax is set after a calculation (C141_fresh_partial); then the old axis fits are used (C141_stale_counterexample). Fit functions do not raise; changing attributes of the object or arrays in a result by hand is not modelled.
* **C142** (matdyn2fqha.py writes a file which F_QHA reads as the DOS it was given). Proved for files without comment lines (C142_output_partial), C142_lines for all files. The code violates the property for files with a comment line, as newer versions of matdyn.x write them (C142_comment_counterexample). F_QHA.f90 is not in the repository; its format is taken from the comments of the script.
* **C144** (All methods of parsers and containers answer the same after any history of calls). The history part is proved in full (C144_history, C144_same). C144_raw_partial leaves out raw arrays of shape (1,): there the code violates what the docstring of raw_return says (C144_raw_counterexample). Assignments of attributes by the user between calls are not in the history; a computed attribute is then not recomputed (C144_reset_remark for resetting).
* **C145** (Positions of peaks from splines). C145_positions_partial leaves out peaks closer than spread to the first point. There the code violates the property: it raises for every input with at least 2*spread+1 points (C145_left_edge, C145_edge_counterexample), or returns the position of another peak (C145_other_counterexample). The spline is a parameter with the properties in Spec.GoodSpline; Lagrange interpolation has them (lagrange_good).
* **C146** (The default placeholders exist in every parameter study). The keys and their rules are proved in full (C146_keys, C146_available, C146_only). C146_replaced_partial assumes that the rules are unambiguous for the template; otherwise the code violates the docstring, e.g. for a parameter named id and the placeholder XXXIDX (C146_prefix_counterexample). The temporary directory and its removal are not modelled.
* **C147** (Labels of a dispersion plot sit at their k-points). The placement of labels and curves is proved for all paths (C147_labels_partial, C147_tick_distance, C147_coords, C147_dos). The code violates the documented optional arguments: without special_points_path plot_dis always raises (C147_no_special_points_counterexample), SpecialPointsPath without ks_frac always raises (C147_frac_required_counterexample), without symbols it cannot be plotted (C147_symbols_required).
* **C148** (Comparison of nested values says equal exactly for equal values). Equal values always compare as equal (C148_equal_complete); the converse is proved if arrays at the same place have the same shape (C148_equal_partial, C148_almost_partial, C148_keys_partial, C148_tolerance_partial). The code violates the rest: arrays whose shapes can be broadcast are equal (C148_shape_counterexample), a number equals an array (C148_scalar_counterexample), strict and tolerances are dropped in nested dicts (C148_strict_nested_counterexample, C148_tolerance_nested_counterexample, C148_tolerance_text_counterexample), a dict compared with something else raises (C148_dict_other_counterexample). Numpy scalars, bools, lists and NaN are not modelled.
* **C149** (Distances do not depend on backend or threads, estimated widths are lengths). num.distsq is proved for every schedule (C149_distsq), the estimates and models in full. The JAX variant of squared_dists accepts points of different dimension if one dimension is 1, where the others raise (C149_modes_counterexample). Invariance of regularised models in other units is proved for the Gaussian kernel (it fails for the others, whose values scale with the units); with r=0 for all kernels. The docstring of estimate_p names the scipy estimate 'mean nearest neighbor distance'; C149_line shows what it is for a regular line.
* **C150** (Cutting trajectories in a directory: complete runs, backups, crashes, second runs). Proved: complete runs, backups, -s, originals kept at every crash point of one run, same result after crash and second run where no file is missing and (CP2K) a step is left in the position file. Violated by the code, with counterexamples: a crash between the two renames of sed leaves the file only as .bak and a second run skips it; a second run overwrites the backups; every further run of cut-cpmd.sh deletes one more line of TRAJEC.xyz; without the position file the count line of the deleted step stays; a restart file without STEP_START_VAL makes the step empty and nearly everything is deleted.
* **C155** (The RPDF does not depend on the supercell). Proved in full for norm_vmd=False (C155_supercell). With norm_vmd=True g(r) does depend on the supercell: C155_vmd_counterexample gives the exact factor N(A-1)/(NA-1); radii and number integral agree (C155_number_partial).
* **C163** (The drawing helpers draw what is asked for, and only that). Violated by the code in two documented uses, proved: plotlines3d with a 1d z always fails (z[:,j] instead of zz[:,j], C163_lines_1d, C163_lines_counterexample) and color_ax(axis='both') always fails (C163_color_both). Proved for 2d z, for axis x or y, and in full for savefig and new_axis. new_axis names every line bottom2 and not bottom2, bottom3, … as its comment says (C163_name).
* **C167** (A larger regularisation parameter r gives stiffer Rbf models which are never closer to the data; r > 0 always gives a model). Proved for rbf='gauss' and 'inv_multi'. False for 'multi': its kernel matrix is not positive, and adding r can make it singular (C167_multi_counterexample).
* **C168** (signal.smooth: within the data, linear, independent of the direction, straight lines stay). 'Within the data' is false for edge='m' with kernels reaching beyond the mirrored data, where zeros are added (C168_long_counterexample); then it holds for convex sets that contain zero (C168_within_zero). The other parts are proved in full.
* **C169** (crys.smooth smooths every time series of a trajectory and keeps it consistent). Series, attributes, and equality of the methods are proved in full. Consistency is false for a changing cell (C169_varcell_counterexample) and for time at the ends (C169_time_counterexample); proved for a fixed cell and for times in the middle.
* **C170** (Viewers show the object and leave nothing behind). Proved for wait=True, bg=False and a viewer with exit code 0. False otherwise: bg=True and wait=False always raise NotImplementedError, start no viewer and leave the files (C170_bg_counterexample); a failing viewer leaves both temporary files (C170_exit_counterexample); each temporary file leaves an open descriptor and symbols None become 'H' (C170_leak_counterexample, C170_leak_many).
* **C171** (One interface for all interpolators of 2d data). C171_rbf_partial: at least two different points, values not all zero. False for values that are all zero, which give nan everywhere (C171_zero_counterexample). Everything else is proved in full; scipy's interpolators are opaque.
* **C172** (Digital filters do to a signal what their frequency response says). Everything but mode='bandstop', which raises UnboundLocalError for all arguments (C172_bandstop_counterexample). firwin is opaque: number and symmetry of the coefficients and gain 1 in the pass band are hypotheses.
* **C173** (What is in the database file after the end, an error or a kill). All or nothing holds for changes of rows (C173_atomic_partial). False for attach_column: its ALTER TABLE is in the file at once, the values only after a commit, and the call cannot be repeated after a kill (C173_attach_counterexample). The rules of the sqlite3 module for transactions are part of the model.
* **C176** (Dumped objects can be read back, also after histories of dumps and kills). Partial because of the code: dump opens the file before it pickles, so a dump which raises because the object cannot be pickled destroys the previous dump (C176_lost_counterexample). Everything else is proved.
* **C178** (What solvate.sh makes of its input, and which files it touches). Missing because the script violates it: an input called water.pdb is overwritten without -ci, all *.log files of the directory are deleted, stale results are converted after an error of gmx, names which contain -h only print the usage (four counterexample theorems).
* **C179** (Rbf gives the same models with and without jax). Missing because the code violates it: multiquadrics with jax (C179_multi, C179_multi_counterexample); sym_pos=True needs a positive definite matrix, that of multiquadrics never is for r=0 and different points.
* **C180** (Names of files and directories in shell commands are names). Missing because the code violates it: names are not quoted, so the claims hold exactly for names without characters special to the shell (C180_exact, C180_split, C180_inject, C180_clear_counterexample).
* **C181** (The start script submits each calculation once, in its directory). Missing because the code violates it: after a failed submission nothing more is submitted (C181_failed_counterexample), and with a blank in the name of the directory only the first job is (C181_blank_counterexample).
* **C184** (order_similar untangles bands). Missing because the code violates it: with order=0 or order=1 and repeat=1 the reference value is not renewed after order + 2 rows, and all bands get the same value in each later row (C184_order_counterexample).
* **C185** (Files of structures for LAMMPS and the symbols which runs get from them). Missing because the code violates it: two structures in one directory share the symbols file, and runs of the first get the symbols of the second (C185_shared_counterexample); a killed call leaves the earlier data file without symbols, which is read as an empty list (C185_killed_counterexample); a data file called lmp.struct.symbols replaces the symbols (C185_name_counterexample). The same file is always named by the same text.
* **C187** (plot_dispersion.py draws the dispersion in the file). Missing because the code violates it: a truncated file is drawn with arbitrary values for the missing k-points (C187_truncated_counterexample), and the path starts at the distance of the first k-point from the origin instead of 0 (part of C187_curves_partial, see C22_start).
* **C188** (Normalising an array makes its largest value 1). Missing because the code violates it: for arrays of negative numbers the order is reversed and 1 is the smallest entry (C188_negative_counterexample); for a maximum of 0 there is no finite result (C188_none); for complex arrays the maximum is the largest real part, so absolute values are not bounded (C188_complex_counterexample) and normalising twice differs from normalising once (C188_twice_counterexample).

## 5. Which code is not modelled

Every function not listed here has a definition in the model which cites it (or
is a trivial wrapper of one that has).

* `base.py`: `FlexibleGetters._debug_attrs`
* `calculators.py`: `find_exe`
* `common.py`: `add_to_config`, `str2tup`, `get_filename`, `file_read`, `file_readlines`, `dict2str`, `print_dct`, `dict2class`, `permit_sigpipe`
* `crys.py`: `volume_cc3d`, `scell3d`
* `dcd.py`: `read_dcd_header`
* `decorators.py`: `crys_add_doc`
* `eos.py`: `MaxDerivException.__str__`, `ExternEOS._call`
* `io.py`: `write_wien_sgroup`, `load_h5`
* `mpl.py`: `fig_ax`, `fig_ax3d`, `clean_ax3d`, `Plot.collect_legends`, `Plot.legend`, `get_2d_testdata`, `make_axes_grid_fig`
* `mttk.py`: `add_doc`
* `num.py`: `fempty`
* `parse.py`: `axis_lens`, `CifFile._get_cif_block`, `PwMDOutputFile.get_coords_unit`, `PwMDOutputFile.get_cell_unit`, `CpmdMDOutputFile.get_temperature_cell`, `Cp2kMDOutputFile._get_cell_file_arr`, `Cp2kMDOutputFile._get_ener_file_arr`, `Cp2kMDOutputFile._get_stress_file_arr`, `LammpsTextMDOutputFile._assert_shape_mod`
* `pwscf.py`: `read_dynmat_out`
* `random.py`: `RandomStructureFail.__str__`, `RandomStructure._add_random_atom`, `RandomStructure.get_random_struct`, `random_struct`
* `rbf/core.py`: `Rbf.__repr__`, `Rbf._rectify_points_shape`, `Rbf.get_params`
* `sql.py`: `get_test_db`, `SQLiteDB.get_array`, `sql_column_old`
* `thermo.py`: `HarmonicThermo._printwarn`, `Gibbs._default_fit_3d_G`, `Gibbs._default_fit_1d_ax`, `Gibbs._default_fit_alpha`, `Gibbs._default_fit_C`

Outside `src/pwtools`: `bin/cut-cp2k.sh`, `cut-cpmd.sh`, `cif2any.py`,
`cif2sgroup.py`, `pdb2cif.py`, `matdyn2fqha.py`, `solvate.sh`, `plot_dispersion.py` and the Fortran
routines of `src/_ext_src/flib.f90`, `dcd.f90` used by modelled functions are
modelled; `examples/`, `doc/`, `setup.py` and the
tests are not.
