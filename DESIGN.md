# Formal model of pyscal: design

Source: /repo (pyscal/pyscal, pinned commit).  The Python layer is
`src/pyscal/core.py`, `trajectory.py`, `traj_process.py`, `crystal_structures.py`
and `formats/*.py`; the numerical layer is `src/pyscal/system.cpp`, `atom.cpp`
and their bindings.  The code was read as text; nothing was built or run.

## Conventions of the model

* Numbers: C++ `double`/Python `float` are modelled as real numbers `ℝ`.  Rounding,
  overflow and signed zeros are not modelled, except that Spec/Rounding describes rounding to
  nearest for the theorems that say so (C31, C103).  A result that the code would compute
  as a division by zero (NaN or infinity) is `none : Option ℝ`; a comparison with
  such a value is false, as with NaN.
* The constant PI of the code is the decimal literal of atom.h where the code uses it,
  not the real number π.
* Integers are `ℤ`/`ℕ`; C++ integer overflow is not modelled.
* Exceptions are values: `Except Fault α`.  `Fault.oob` stands for an out-of-bounds access in C++
  (undefined behaviour): past a fixed-size array, past the end of a vector, or through an index
  of no atom.  Python methods whose state after an exception matters return both
  (`Py α := System → System × Except Fault α`).
* The neighbour arrays of an atom have 300 slots in the code.  The model uses lists and turns a list
  longer than 300 into `Fault.oob` (`checkCapacity`).
* Loops over atoms are folds over lists; a pair loop `for ti, for tj>ti` is a fold over
  the lexicographic list of pairs.
* Recursion without a bound in the code (clusters) is a fuelled function with a proof that the fuel suffices.
  A Python loop that never ends is `Fault.nonTermination`.
* `std::sort` is an arbitrary function that returns a sorted permutation (the order of
  ties is universally quantified); an inhabitant is given.
* External engines (Voro++, ASE, mdtraj, text/number conversion, file system) are parameters.  Where a law
  about one is needed it is a hypothesis (`Codec.Lawful`, `double`), with an instance that satisfies it.
* Python objects whose identity matters (trajectories, timeslices) are indices into a list of objects.
  The `custom` dictionaries of atoms, shared between Python copies, are modelled as shared.
* Every definition in `Verif/Model` cites the lines it models.  `Verif/Spec` holds the
  independent specifications, `Verif/Props` the property theorems with witnesses,
  `Verif/Lemmas` the supporting lemmas.

A property whose statement is false of the code keeps its full statement in properties.jsonl.  The negation is
proved for a concrete witness (`..._false...`), what does hold is proved as `..._partial`, and the claim has status "partial".

## Modules

| module | models |
|---|---|
| Model/Num | vectors, matrices, option-valued division, faults |
| Model/System | Atom and System records, box setter and getter, distances |
| Model/Store | set/add/get of atoms, ghosts, padding, replication, counters |
| Model/Neighbors | cutoff, number, adaptive and sann searches, cell lists, resets, set_atom_cutoff |
| Model/Harmonics | PLM, YLM, QLM, calculate_q, calculate_aq, get/set of q |
| Model/Solids | s_ij, frenkel numbers, find_solids, disorder, clusters, largest cluster |
| Model/Cna | common neighbour analysis, diamond |
| Model/OrderParams | centrosymmetry, chi, angular, entropy, SRO, rdf, energies, concentration |
| Model/Voronoi | weights, volumes, Voronoi vector, from the output of a tessellation |
| Model/Crystal | make_crystal, remap_atoms, extract_cubic_box |
| Model/Text | words, lines, Python indexing and dictionaries, number/text conversion as a parameter |
| Model/Dump | lammps-dump reader, writer, splitting |
| Model/Trajectory | Trajectory and Timeslice |
| Model/Formats | ase, mdtraj, poscar, dispatch of read/write, get_custom |
| Spec/Symmetry, Lemmas/Motion, Lemmas/MotionBuild, Props/Symmetry, Relabel, Wrapping, WrapSmall | rigid motions, scaling, renumbering and rewrapping of whole analyses (C74-C78) |
| Props/Surface | surface flags after clustering (C79) |
| Model/AtomApi, Spec/AtomApi, Props/AtomApi, AtomDefaults | the attributes of an Atom as Python sees them (C80, C81, C101) |
| Model/Misc, Spec/Misc, Props/Misc | misc.py and store_neighbor_info (C82-C84) |
| Props/SolidClusters | `find_solids` with clustering (C88) |
| Props/Truncated | interrupted dump files (C89) |
| Props/Locality | atoms beyond the cutoff (C90) |
| Props/Monotone | larger cutoffs (C91) |
| Lemmas/Alike | searches with or without cell lists; q and bonds do not depend on the order of the neighbours |
| Props/Supercell | different cells of one crystal (C92) |
| Model/AseTrajectory, Props/AseTrajectory, AseSkewed | slices of trajectories as ASE objects (C93) |
| Props/MonotoneFalse | cell lists with two cells along an axis (C11, C91) |
| Props/TrajIter | the generator `Trajectory.iter` with systems (C47) |
| Props/Embed | the box around a skewed cell (C94) |
| Lemmas/Perfect, Props/Perfect | perfect crystals (C95) |
| Lemmas/ShellSig, Lemmas/PerfectCna, Props/PerfectCna, Props/PerfectHcp, Props/PerfectDiamond | common neighbour analysis of perfect crystals (C96) |
| Props/PerfectCentro | centrosymmetry of perfect crystals (C97) |
| Spec/Rounding, Lemmas/Rounding, Props/PerfectChi | chi parameters of perfect crystals (C102), exact and rounded (C31) |
| Props/PerfectAngular | angular criterion of perfect crystals (C104) |
| Props/Equivalent | entropy and chi parameters of equivalent atoms (C92), equivalent sites of crystals (C106) |
| Props/PerfectSro | short range order of B2 and L12 (C105) |
| Lemmas/Relabel, Props/Labels | types and ids as labels (C109) |
| Props/Condition | calculate_q with a condition (C110) |
| Props/Layout | whitespace in dump files (C111) |
| Props/Stricter | find_solids with stricter arguments (C112) |
| Props/Again | find_solids called again (C113) |
| Props/LabelsSolids | labels and find_solids (C114) |
| Props/NestedClusters | stricter clusterings (C115) |
| Props/ClusterAgain | clustering again (C116) |
| Props/EntropyAgain | entropy after other analyses (C117) |
| Props/AnglesAgain | angular parameters after other analyses (C118) |
| Model/Sharing, Props/Sharing | several systems and shared `custom` dictionaries (C108) |
| Props/BinaryAlloy | agreement of calculate_pmsro and calculate_sro (C107), C105 for calculate_pmsro |
| Model/Floating, Lemmas/Floating, Props/Floating, FloatingCrystal | distances and searches with rounding (C103) |
| Props/NoisyCentro | centrosymmetry of displaced crystals (C98) |
| Props/DumpErrors | missing columns, values that are not numbers, uneven rows (C41, C42, C46) |
| Props/LargeSystems | C09, C10, C84, C90 and C91 for systems of any size |
| Spec/History, Lemmas/Frame, Lemmas/Frame2, Props/Frame, Props/Repeat | histories of analysis calls (C85, C86) |
| Model/SearchState, Lemmas/FailedSearch, Props/Failure | neighbour searches that raise (C87) |
| Props/Leftover | clustering followed by order parameters (C57) |
| Props/CellsSkew | cell lists in skewed boxes (C11) |
| Props/Voids | find_tetrahedral_voids end to end (C83) |
| Lemmas/Displaced, Props/Noise | displaced atoms and make_crystal with noise (C98) |
| Lemmas/QClose, Props/Continuity, NoisySolids | bond order parameters and solids of displaced atoms (C100) |
| Lemmas/CutoffAny | cutoff searches with or without cell lists |
| Lemmas/SannSame, Props/SannMore | SANN searches that agree (C14, C77, C78, C92) |
| Props/PerfectSolids | perfect crystals are solid (C99) |

## Per property

### C01 Orthogonal boxes: get_distance is the minimum-image distance (proved)

Modelled: Model/System (wrap, get_abs_distance, getDistance).

How: the one-step wrap minimises |d + nL| over all integers n when |d| <= 3L/2, by case analysis on n; lifted to three components.  A second theorem gives a difference outside the range where the result is not minimal.

True minimum image for axis-aligned boxes and differences up to 3/2 box lengths; the range is shown to be necessary.

Theorems: `C01_min_image`, `C01_range_needed`

### C02 Distances are symmetric, vectors antisymmetric, and they agree with each other (proved)

Modelled: Model/System, the three copies of the distance code.

How: wrap is odd away from and at ties; the triclinic branch composes linear maps with it.

All boxes, all states.

Theorems: `C02_symmetry`

### C03 Triclinic boxes: get_distance is the length of the shortest periodic image (partial)

Modelled: Model/System, triclinic branch.

How: witnesses for the negation; the positive part writes the result as a lattice translate and compares cell heights with lattice vectors.

False for skewed cells and for orthogonal cells not aligned with the axes (witnesses). Proved: the result is a periodic image with fractional coordinates within 1/2, and exact whenever some image is shorter than half of every cell height.

Theorems: `C03_false`, `C03_false_rotated_orthogonal`, `C03_partial`

### C04 The box of a System is the box last assigned to it (partial)

Modelled: Model/System (setBox, getBox), Model/Store (assign with padding).

How: three witnesses; induction over sequences of assignments for the positive part.

Three counterexamples; holds for box histories without padding where no triclinic box precedes an orthogonal one.

Theorems: `C04_false_triclinic_sticks`, `C04_false_getter_stale`, `C04_false_cancelling_cosines`, `C04_partial`

### C05 Assigning atoms keeps exactly the given real atoms and pads small systems to at least 200 (proved)

Modelled: Model/Store (repeat, assign).

How: fold lemmas for the loops of `repeat` and `set_atoms`; the replication counts are treated for every n.

All lengths, all boxes.

Theorems: `C05_assign_atoms`, `C05_assign_succeeds`, `C05_errors`

### C06 Replication describes the same infinite crystal (proved)

Modelled: Model/Store (repeat).

How: equality of infinite point sets by division with remainder in the (2r+1) classes along each axis.

Equality of infinite periodic structures, counts, ids, one copy per cell.

Theorems: `C06_repeat`, `C06_repeat_system`

### C07 natoms and sys.atoms reflect every add/set history (partial)

Modelled: Model/Store (add_atoms, set_atoms, getters).

How: invariant StoreInv, induction over operation lists; witness for ghosts.

False when ghosts are added to a system without ghosts; proved for all histories passing real atoms.

Theorems: `C07_false`, `C07_partial`

### C08 get_atom followed by set_atom edits exactly one atom (partial)

Modelled: Model/Store (get_atom, set_atom), Model/Dump.

How: list update laws; witnesses for replicated and dump-read atoms.

Holds when the location field is the index; false for replicated atoms and for every atom but the last of a system read from a lammps-dump file (locations start at 1).

Theorems: `C08_false_repeat`, `C08_false_dump`, `C08_partial`

### C09 Cutoff neighbours are exactly the atoms closer than the cutoff (proved)

Modelled: Model/Neighbors (neighborsNormal, checkCapacity, findNeighbors).

How: invariant of the double loop: slot list of each atom is the filtered index list; overrun characterised exactly.

All systems up to 2300 real atoms, all cutoffs and filters; the overrun of the 300 slot arrays is the only failure. C09_sound: for systems of any size and any box (cell lists included, without conditions) every listed entry is right; completeness with cell lists is C11.

Theorems: `C09_cutoff_exact`, `C09_overrun`, `C09_orthogonal`, `C09_sound`

### C10 Cutoff neighbour lists are mutual (proved)

Modelled: as C09, and the cell lists of any search that succeeds.

How: every successful search runs over some list of pairs and adds a hit to both atoms (`cutoff_pairs`); equal counts and an even total follow by induction over that list, whatever the pairs are.

All successful searches with a numeric cutoff: any size (cell lists included, without conditions), any box, filter and cutoff; C10_any also counts repetitions.

Theorems: `C10_any`, `C10_even_any`, `C10_mutual`, `C10_even`

### C11 Cell lists give the same neighbours as brute force (partial)

Modelled: Model/Neighbors (cell lists).

How: floor arithmetic modulo the number of cells: atoms closer than R sit in equal or adjacent cells; each adjacent cell is visited once if there are three.  Witness with two cells.  Props/CellsSkew: in every system compared atoms are in adjacent cells (Binned.adjacent); a sheared box in which all close pairs fall into cells that are not adjacent.

Proved for orthogonal boxes with edges of at least three cutoffs and atoms less than one box length outside, including when the search succeeds. With two cells along an axis the search succeeds and lists neighbours twice, so the full statement is false. It is also false in skewed boxes: the cells are filled from Cartesian coordinates, and a search can find no neighbours at all although two atoms are at distance 1 with cutoff 10 (witness built through the API).

Theorems: `C11_cells_eq_brute`, `C11_partial`, `C11_succeeds`, `C11_false_two_cells`, `C11_false_doubled`, `C11_false_skew`

### C12 method='number' gives the nmax closest atoms or an error (partial)

Modelled: Model/Neighbors (guess, fillTemp, neighborsByNumber).

How: abstract sort (any sorted permutation), prefix lemmas; witness of 5000 atoms for the cell-list case.

Proved for up to 4000 atoms without conditions, and above that for boxes suited to the cell lists; every tie order of the sort. For 5000 atoms in a thin box the search succeeds with a neighbour listed twice, so the full statement is false.

Theorems: `C12_partial`, `C12_errors`, `C12_false_cells`

### C13 Adaptive cutoff follows its formula (partial)

Modelled: Model/Neighbors (neighborsAdaptive).

How: as C12 with the mean of the first nlimit distances.

As C12, with the same counterexample. Atoms beyond the search radius are not considered, as the statement says.

Theorems: `C13_partial`, `C13_errors`, `C13_false_cells`

### C14 SANN neighbours are the m nearest atoms (partial)

Modelled: Model/Neighbors (neighborsSann).

How: loop invariant of the partial sums; the selected set is characterised exactly (also that the rule does not stop earlier) and shown to miss the fourth nearest atom. `C14_succeeds` gives a radius that suffices.

Any number of atoms, with cell lists in the conditions of C11. The neighbours are exactly determined by the sorted list of atoms (C14_partial, including that the rule stops at the first possible number); the search succeeds when enough atoms are in range (C14_succeeds). Entries are correct, distinct and satisfy the SANN rule except the last, which breaks it; the claim that no nearer atom is left out is false for every atom with more than three neighbours.

Theorems: `C14_partial`, `C14_succeeds`, `C14_false`, `C14_false_witness`

### C15 The type filter is honoured by every neighbour method (partial)

Modelled: Model/Neighbors, Model/Voronoi.

How: filter characterisation from C09/C13; witnesses for number, sann, voronoi.

Holds for cutoff and adaptive searches; false for method='number', for SANN and for the Voronoi method (witnesses).

Theorems: `C15_partial`, `C15_false_number`, `C15_false_sann`, `C15_voronoi_first`, `C15_false_voronoi`

### C16 find_neighbors does not depend on earlier calculations (partial)

Modelled: Model/Neighbors, Model/Voronoi.

How: simulation relation `Like` between systems that differ only in history; witnesses for cutoff and the voronoi mark.

Neighbour lists and exceptions do not depend on history, for all non-Voronoi methods; neighbour lists of Voronoi searches neither, in orthogonal boxes. Atom cutoffs do (witness), and a default search after a Voronoi search leaves a mark that changes q (witness).

Theorems: `C16_partial`, `C16_voronoi_partial`, `C16_false_cutoff`, `C16_false_voronoi`

### C17 Steinhardt q_l lies between 0 and 1 (proved)

Modelled: Model/Harmonics (PLM, YLM, QLM, calculate_q).

How: addition theorem: q_l^2 is the weighted mean of P_l over neighbour pairs, P_l bounded by 1 and positive semidefinite.

All configurations and weights, every l in 2..12; NaN and Voronoi cases included. After a cutoff search with distinct positions the conclusion is unconditional.

Theorems: `C17_range`, `C17_cutoff`

### C18 Steinhardt q_l is rotationally invariant (proved)

Modelled: as C17.

How: the Legendre form depends on scalar products only.

Every orthogonal matrix, plain and averaged values, NaN included.

Theorems: `C18_rotation`

### C19 q_l is independent of neighbour order and of distances (proved)

Modelled: as C17.

How: permutation and scaling invariance of the Legendre form.

Permutations and positive scalings, plain and averaged values.

Theorems: `C19_order_scale`

### C20 Averaged q_l is the norm of the mean of the complex vectors and is bounded by the extremes (proved)

Modelled: Model/Harmonics (calculate_aq).

How: norm of a mean vector, triangle inequality.

Mean vector, norm, bound by the largest plain value, agreement, NaN propagation.

Theorems: `C20_average`

### C21 Bond correlation s_ij is symmetric and within [-1,1] (proved)

Modelled: Model/Solids (get_number_from_bond).

How: Cauchy-Schwarz, addition theorem.

s_ij is the normalised scalar product of the q_l vectors (NaN exactly if a vector is zero), symmetric, bounded by 1, and equals a Legendre expression of the bond directions.

Theorems: `C21_values`, `C21_symmetric`, `C21_legendre`

### C22 find_solids counts solid bonds by the threshold (partial)

Modelled: Model/Solids (calculate_frenkel_numbers, find_solids).

How: exact count proved equal to what the dangling else does; witnesses.

False of the code: bonds below the threshold are counted too and the comparison with bonds is strict. Proved: exactly what is counted and which atoms are solid. The number itself cannot be read through the attribute bonds (C80_false_bonds).

Theorems: `C22_partial`, `C22_false_threshold`, `C22_false_minimum`, `C22_threshold_ignored`

### C23 right=False flips the comparison of find_solids (partial)

Modelled: Model/Solids.

How: the model of find_solids never reads `right`; witness where the documented result differs.

False of the code: right=False has no effect on any system; with witness. Setting sys.comparecriteria by hand does not help: then no bond ever counts and no atom is solid (proved).

Theorems: `C23_false`, `C23_manual`

### C24 Rejected arguments leave the system unchanged (partial)

Modelled: Model/Solids, Model/OrderParams, Model/Harmonics.

How: decision logic, each branch.

Proved for all the methods named, with one exception: shells is not checked. With three shells calculate_sro returns without calculating anything, or raises ValueError after assigning the atoms again (general theorem and witness).

Theorems: `C24_find_solids`, `C24_calculate_q`, `C24_get_qvals`, `C24_disorder`, `C30_errors`, `C24_sro`, `C24_pmsro`, `C36_succeeds`, `C24_shells`, `C24_false_shells`

### C25 Clusters are connected components (partial)

Modelled: Model/Solids (find_clusters_recursive, harvest_cluster, cluster_atoms).

How: fuelled depth-first search with a proof that the fuel suffices; invariant on reached sets; connected components as equivalence closure.

Clusters are the connected components among chosen atoms (graph search proved correct). False for padded systems of under 200 atoms: links across the periodic boundary are lost.

Theorems: `C25_partial`, `C25_components`, `C25_succeeds`, `C25_run`, `C25_false_padded`

### C26 Largest cluster size and membership flags (partial)

Modelled: Model/Solids (largest_cluster, get_largest_cluster_atoms).

How: argmax of counts; witness for an empty labelling.

Largest cluster is the maximum-size component when a cluster exists. False when there is none: all atoms are flagged.

Theorems: `C26_partial`, `C26_false`

### C27 CNA signatures count common neighbours and bonds (partial)

Modelled: Model/Cna (signatures).

How: counting lemmas: the loops compute cardinalities of sets of common neighbours and bonds.

Neighbours, cutoffs and signatures are those of the definition (common neighbours, bonds, largest and smallest bond count) on fresh systems; false for the smallest bond count, which is never reported above 8 (witness). Isolated common neighbours are covered by the specification of the code.

Theorems: `C27_partial`, `C27_false`

### C28 CNA and diamond structure counts partition the atoms (proved)

Modelled: Model/Cna (calculate_cna, identify_diamond).

How: tally lemma; each structure code set exactly once.

Every successful call: counts are the exact tallies and add up to the number of atoms. With a lattice constant an atom with fewer than 14 candidates makes the call read past the end of its candidate list (proved).

Theorems: `C28_cna`, `C28_diamond`, `C28_cna_overrun`

### C29 calculate_cna can be repeated (partial)

Modelled: Model/Cna.

How: simulation for the repeated call after reset; concrete fcc witness.

Repeatable after reset_neighbors; false otherwise: candidates from the earlier search are kept, and a perfect fcc atom changes to structure 0 on the second call (witness).

Theorems: `C29_partial`, `C29_false`

### C30 Centrosymmetry is the sum of the nmax/2 smallest squared pair sums and detects inversion symmetry (proved)

Modelled: Model/OrderParams (calculate_centrosymmetry).

How: sorted prefix sums, permutations of pair lists, zero iff pairing by inversion.

Value, neighbours, sign, the zero case and rejected arguments, under the exactness condition in the statement. If some atom has too few candidates the call reads out of bounds (proved).

Theorems: `C30_centrosymmetry`, `C30_errors`

### C31 Chi parameters partition the neighbour pairs (partial)

Modelled: Model/OrderParams (chi parameters), with the computation of the cosine as a parameter: exact (`pyCos`) or rounded after every operation (`flCos`).

How: Histogram specification, each cosine in one bin. Rounding: Spec/Rounding defines doubles (without bounds on the exponent) and rounding to nearest with any rule for ties; the norms, products and quotients of the bcc neighbours are bounded between doubles.

C31_chi: every count, the total, and uniqueness of the bin, in exact arithmetic; zero vectors (NaN cosines) are covered. C31_computed: with any computed cosine the total is the number of pairs whose computed cosine lies in [-1, 1]. C31_false_rounding: with rounding to nearest the total is wrong, as opposite neighbours can have a computed cosine below -1 (87 of 91 pairs in bcc with lattice constant 4).

Theorems: `C31_chi`, `C31_succeeds`, `C31_computed`, `C31_false_rounding`

### C32 Local entropy uses each atom's own density (partial)

Modelled: Model/OrderParams (entropy).

How: unfolds the fold over atoms with the shared density; witness.

False of the code: the density of the first atom is reused for all later ones (witness). Proved for local=False and for the first atom.

Theorems: `C32_partial`, `C32_false`

### C33 Entropy integral is the trapezoid rule on the grid (partial)

Modelled: Model/OrderParams (trapezoid_integration).

How: sum over the nodes; sign of the dropped term; witness.

False of the code: the node before the last is dropped. Proved: the exact sum computed, the sign of the error, and the NaN for atoms without neighbours.

Theorems: `C33_partial`, `C33_above`, `C33_false`, `C33_no_neighbours`

### C34 Neighbour averages lie between the extremes (proved)

Modelled: Model/OrderParams, Model/Solids, Model/Voronoi.

How: mean (or weighted mean) between extremes, NaN propagation.

Entropy, disorder and Voronoi volume averages; the switching average is a weighted mean, NaN for a neighbour exactly at ra (proved).

Theorems: `C34_entropy`, `C34_disorder`, `C34_switch`, `C34_switch_nan`, `C34_volume`

### C35 Disorder compares an atom with its neighbours (partial)

Modelled: Model/Solids (calculate_disorder).

How: expression with the loop counter; witness.

Bounds, the uniform case and the averaged value. The formula is false of the code: it uses the atom numbered by the loop counter instead of the neighbour.

Theorems: `C35_partial`, `C35_false`

### C36 Short range order follows Cowley's formula (proved)

Modelled: Model/OrderParams (calculate_sro).

How: arithmetic of fractions; ranges.

All two component systems, any neighbour lists in range.

Theorems: `C36_sro`, `C36_range`, `C36_average`, `C36_succeeds`

### C37 Multicomponent short range order uses the concentration of the compared type (partial)

Modelled: Model/OrderParams (calculate_pmsro).

How: sorted distinct types equal 1..k under the hypothesis; witnesses.

Holds when the types are 1..k; false otherwise (witnesses: IndexError, wrong fraction).

Theorems: `C37_partial`, `C37_false`

### C38 The RDF histogram counts every pair once (partial)

Modelled: Model/OrderParams (get_pairdistances, calculate_rdf).

How: pair enumeration, histogram partition; witness for padding.

One distance per pair, every distance in exactly one bin, density values, all errors. For padded systems the distances include the ghost atoms while the normalisation does not (witness: 2 atoms, 31125 distances).

Theorems: `C38_pairs`, `C38_histogram`, `C38_values`, `C38_errors`, `C38_false_padded`

### C39 remap_atoms puts atoms in the box and separates them (proved)

Modelled: Model/Crystal (remap_atoms).

How: per-coordinate wrap, pairwise separation by induction.

All orthogonal boxes, flags, tolerances and positions; nearness is over all periodic images.

Theorems: `C39_remap`, `C39_kept`, `C39_idempotent`

### C40 make_crystal builds the requested crystal (proved)

Modelled: Model/Crystal (make_crystal).

How: triple loop algebra; per-structure tables compared with fractional coordinates stated separately.

All eight structures, a > 0, ca > 0, all repetitions; noise 0. The ideal crystals are given separately by fractional coordinates.

Theorems: `C40_make_crystal`, `C40_unknown`

### C41 lammps-dump reading does not depend on column order (proved)

Modelled: Model/Text, Model/Dump (reader).

How: token-level model; invariance under permutation of columns; every way a number in a row or in the head can be malformed is a ValueError (`C41_malformed`).

All column orders and extra columns, orthogonal and triclinic. Conversions between text and numbers are a parameter with stated laws.

Theorems: `C41_columns`, `C41_order`, `C41_errors`, `C41_missing`, `C41_malformed`, `C41_malformed_head`

### C42 lammps-dump write then read gives the same system (partial)

Modelled: Model/Dump (writer and reader).

How: round trip over a text codec with stated laws; witnesses.

Holds for boxes along the axes with custom values that are single words (6 decimals). False for skewed boxes, of which only the edge lengths are written, and for custom values with spaces.

Theorems: `C42_partial`, `C42_values_partial`, `C42_shape`, `C42_header`, `C42_false_triclinic`, `C42_false_space`, `C42_printed_partial`

### C43 split_trajectory partitions the file into its frames (proved)

Modelled: Model/Dump (split_trajectory).

How: chunking of line lists.

All files whose fourth line gives the number of atoms.

Theorems: `C43_split`, `C43_errors`, `exists_tiling`

### C44 Trajectory blocks tile the file and slices select them (partial)

Modelled: Model/Trajectory (Trajectory, slices).

How: chunking, Python slice arithmetic; witness with stray lines.

Blocks and slices: all. Negative indices are right only without stray lines; with stray lines index nblocks gives a block made of them and negative indices are shifted (witness).

Theorems: `C44_blocks`, `C44_index_partial`, `C44_slices`, `C44_errors`, `C44_false_tail`

### C45 Adding timeslices concatenates without changing the operands (partial)

Modelled: Model/Trajectory (Timeslice add, sum).

How: aliasing modelled by object indices; non-termination as a fuel-independent fact.

The result lists both operands, but it is the left operand itself, which is changed; a + a never ends, nor does a sum in which the first slice occurs twice.

Theorems: `C45_partial`, `C45_sum_partial`, `C45_false_operand`, `C45_false_self`, `C45_false_sum`

### C46 Loaded and edited blocks are written instead of the file content (partial)

Modelled: Model/Trajectory (load, unload, to_file, to_dict).

How: state machine, induction over histories; witnesses.

Histories of load, unload, edit, to_file and to_system on existing blocks: proved. False for to_dict, which forgets edits. Loading fails for trajectories of one atom, writing for loaded blocks without id and type columns.

Theorems: `C46_partial`, `C46_load`, `C46_written`, `C46_reload`, `C46_false_to_dict`, `C46_to_dict_case`, `C46_false_single`, `C46_false_no_id`, `C46_uneven`

### C47 Trajectory.iter visits the requested blocks (partial)

Modelled: Model/Trajectory (iter, _yield, the generator as the values given before it ends or raises).

How: range arithmetic; induction over the list of blocks for the systems given; witnesses.

Ascending with n at most nblocks and random are right, for indices and for systems (up to the first frame that cannot be read); descending starts one past the last block and never reaches block 0, and with systems raises IndexError at once.

Theorems: `C47_partial`, `C47_system_partial`, `C47_system_random`, `C47_system_slice`, `C47_other`, `C47_false_descending`, `C47_false_ascending`, `C47_false_system`

### C48 ASE conversion round trip (partial)

Modelled: Model/Formats (read_ase, convert to ase).

How: sorted distinct symbols; witness for a reused System.

Into a new system: proved, with the exact conditions for success. False when the system held fewer than 200 atoms before: the old cell is kept (witness).

Theorems: `C48_partial`, `C48_read`, `C48_types`, `C48_succeeds`, `C48_false_reused`

### C49 POSCAR writer groups atoms by type (proved)

Modelled: Model/Formats (poscar writer).

How: grouping is a stable sort by type.

All systems satisfying the store invariant; printing is a parameter with stated precision.

Theorems: `C49_poscar`, `grouped_types`

### C50 get_custom looks up custom values, attributes and q values in that order (proved)

Modelled: Model/Formats (get_custom).

How: decision list.

All atoms, key lists and attribute tables; attributes are a parameter.

Theorems: `C50_lookup`, `lookup_model`, `lookup_eq`

### C51 Files in any ASE format can be read and written (partial)

Modelled: Model/Formats (read_file, write_file).

How: dispatch, each branch.

Only the built-in format names work. Every other format raises TypeError, on writing after the file has been written, because warnings.info does not exist.

Theorems: `C51_false_read`, `C51_false_write`, `C51_case`, `C51_read_partial`, `C51_write_partial`

### C52 set_q/get_q round trip (partial)

Modelled: Model/Harmonics (set_q, get_q).

How: array laws.

Round trips hold; a list call that raises leaves the atom modified (witness).

Theorems: `C52_set_get`, `C52_set_get_list`, `C52_list_errors`, `C52_false_partial_write`

### C53 calculate_q only changes the requested q values (proved)

Modelled: Model/Harmonics (calculate_q).

How: frame by induction over the requested degrees.

Calls without condition arguments.

Theorems: `C53_frame`, `C53_local`, `C53_get_qvals`, `C53_get_qvals_list`

### C54 Voronoi weights are normalised (proved)

Modelled: Model/Voronoi.

How: Voro++ output is a parameter; sums of normalised areas.

For every tessellation (Voro++ is a parameter): neighbours and weights are those of the faces, non-negative with sum 1; entries and frame in orthogonal boxes.

Theorems: `C54_weights`, `C54_entries`, `findVoronoi_succeeds`, `isContainer_ortho`

### C55 Voronoi vector counts faces by edge number (proved)

Modelled: Model/Voronoi (vorovector).

How: counting lemma.

For every tessellation whose faces refer to vertices of their cell. The uninitialised origin passed to Voro++ is taken as zero (lengths do not depend on it).

Theorems: `C55_vorovector`, `C55_succeeds`

### C56 Atom cutoffs assigned by set_atom_cutoff are scaled mean neighbour distances (proved)

Modelled: Model/Neighbors (set_atom_cutoff).

How: mean of distances.

All neighbour lists and factors; atoms without neighbours get NaN.

Theorems: `C56_cutoff`

### C57 Analyses that write atoms back keep the neighbour information (partial)

Modelled: Model/OrderParams, Model/Store.

How: write-back with at least 200 atoms is the identity on the memory; witness below. Props/Leftover follows the condition from cluster_atoms into calculate_q.

Holds for at least 200 atoms (calculate_chiparams, calculate_angularcriteria, calculate_vorovector; later calculate_q unchanged). False for clustering at any size: the condition stays on the atoms and calculate_q then skips neighbours with another condition (general theorem and witness with 200 atoms). False for padded systems: writing atoms back replaces the ghosts by copies without neighbours, and averaged q becomes NaN (witness).

Theorems: `C57_partial`, `C57_false`, `C57_cluster`, `C57_false_cluster`

### C58 extract_cubic_box returns atoms inside the returned box (proved)

Modelled: Model/Crystal (extract_cubic_box).

How: filter and shift.

Any box; also which atoms are returned.

Theorems: `C58_extract`, `C58_errors`

### C59 Angular criterion is non-negative and vanishes for a tetrahedron (partial)

Modelled: Model/OrderParams (angular criterion).

How: sum of squares; zero iff all cosines are -1/3.

Value, sign and zero case when all neighbours are real atoms. In padded systems a ghost neighbour makes the call raise IndexError (proved, with witness).

Theorems: `C59_partial`, `C59_errors`, `C59_false_padded`

### C60 Energy averages use the neighbours of the system (partial)

Modelled: Model/OrderParams (calculate_energy).

How: mean over neighbours; stale snapshot shown by a general theorem.

Holds for at least 200 atoms with neighbours found before. False without neighbours: the averages are the own energies and the neighbours just found are overwritten (general theorem and witness); false for padded systems: IndexError (witness).

Theorems: `C60_partial`, `C60_not_found`, `C60_false`, `C60_false_padded`

### C61 q_l is the Legendre average over neighbour pairs (proved)

Modelled: Model/Harmonics.

How: addition theorem for every l in 2..12.

Every l in 2..12, all weights.

Theorems: `C61_legendre`

### C62 get_qlm returns spherical harmonic components (partial)

Modelled: Model/Harmonics (get_qlm).

How: relation between m and -m in the code; witness.

False of the code: components for negative m are not conjugated; the relation that does hold is proved.

Theorems: `C62_partial`, `C62_false`, `C62_false_witness`

### C63 CNA structure codes follow the signatures (proved)

Modelled: Model/Cna.

How: decision table on the multiset of signatures.

Fresh systems where every atom has at least 14 others in the search radius and the candidate search is exact, as the statement says.

Theorems: `C63_structure`

### C64 Atoms around diamond sites are labelled by shell (proved)

Modelled: Model/Cna (identify_diamond).

How: three labelling passes as set operations.

All systems where the candidate search is exact (always up to 4000 atoms).

Theorems: `C64_diamond`

### C65 Voronoi vertex positions are the vertices of the cell (partial)

Modelled: Model/Voronoi.

How: append law; witness.

Holds for the first search on an atom; a repeated search appends the vertices again (witness).

Theorems: `C65_partial`, `C65_false`

### C66 remap_atoms changes nothing but positions (partial)

Modelled: Model/Crystal (remap_atoms).

How: frame; witness.

Holds without ghosts; false for padded systems (witness): assignment drops the ghosts, and without assignment the box used for distances changes.

Theorems: `C66_partial`, `C66_false`

### C67 The extracted cubic box is a period of the crystal (partial)

Modelled: Model/Crystal (extract_cubic_box).

How: lattice vectors within tolerance; witness.

One-atom systems: edges are lattice vectors up to the code's tolerance. False otherwise (witness with two atoms).

Theorems: `C67_partial`, `C67_false`

### C68 extract_cubic_box does not change the system (partial)

Modelled: Model/Crystal.

How: frame; witness.

Atoms, counts and the reported box stay; distances change (witness).

Theorems: `C68_partial`, `C68_false`

### C69 get_concentration counts the atoms of every type (proved)

Modelled: Model/OrderParams (get_concentration).

How: counting by sorted distinct types.

All systems satisfying the store invariant.

Theorems: `C69_concentration`

### C70 Plain and scaled dumps of one configuration are read as the same structure (proved)

Modelled: Model/Dump.

How: affine map between scaled and plain coordinates.

All cells with positive edges.

Theorems: `C70_scaled`

### C71 Triclinic dumps: the cell is recovered from the bounding box (proved)

Modelled: Model/Dump.

How: min/max of tilt corners.

All cells with positive edges; translation relative to the corner of the bounding box.

Theorems: `C71_cell`, `boundsOf_exists`

### C72 Splitting a file and opening it as a trajectory give the same frames (proved)

Modelled: Model/Dump, Model/Trajectory.

How: both are the same chunking.

All files whose fourth line gives the number of atoms.

Theorems: `C72_split_blocks`

### C73 to_ase maps atom types to the given species (partial)

Modelled: Model/Formats (to_ase).

How: index arithmetic, shared `custom` dictionary; witnesses.

Holds for types 1 to k on the first call. False afterwards (species of the first call are kept), for types with gaps (IndexError) and for type 0 (last species).

Theorems: `C73_partial`, `C73_errors`, `C73_false_sticky`, `C73_sticky_case`, `C73_false_gap`, `C73_false_zero`

### C74 Translating all atoms changes nothing (proved)

Modelled: Model/System, Store, Neighbors, Harmonics composed as one analysis (Props/Symmetry `analyse`).

How: simulation of the two runs through every loop (Lemmas/Motion); errors included.

Whole analysis from System() to the atoms, all search methods, including errors; sizes for which no cell lists are used.

Theorems: `C74_translation`, `analyse_move`

### C75 Rotating the whole system rotates the result (partial)

Modelled: The same composition.

How: the same simulation with a rotation; witnesses and a general theorem for mirror images.

Rotations of skewed cells: proved. False for orthogonal boxes (a rotated box is treated as axis-aligned), for small inputs whose rotated box entries sum to zero (ValueError), and for mirror images with the searches that guess a distance (RuntimeError for every left-handed skewed cell).

Theorems: `C75_rotation_partial`, `C75_false_orthogonal`, `C75_false_sum`, `C75_false_mirror`

### C76 Results do not depend on the unit of length (proved)

Modelled: The same composition.

How: the same simulation with a factor; the guess distance scales as a cube root of the volume.

All positive factors and methods, including errors; the sort must use the distances only through comparisons (SortScales), shown for insertion sort.

Theorems: `C76_scaling`, `sortScales_insertion`

### C77 The order of the atoms does not matter (proved)

Modelled: The same composition, cutoff method, with the padding.

How: permutation of blocks of periodic copies; the neighbour list as a filtered range. For the other searches the candidates of an atom are permuted, so the sorted distances are the same list and with them the cutoff (`Relab.cands`, `sort_dists`, `Relab.adaptive`, `Relab.number`). SANN: the selected distances depend only on the sorted distances in a ball (`sann_same`), so two searches with different radii agree.

All permutations, padded or not, including errors. C77_relabelling: numeric cutoffs up to 2300 atoms. C77_exact: numeric cutoffs and the adaptive search for any number of atoms, with cell lists in the conditions of C11. C77_number: the search by number gives the same distances and the same neighbours except for ties at the largest distance. C77_sann: two successful SANN searches give the same distances, the same cutoff and the same neighbours up to ties.

Theorems: `C77_relabelling`, `C77_exact`, `C77_number`, `C77_sann`

### C78 Putting atoms back into the cell changes nothing (partial)

Modelled: The same composition, with and without padding.

How: nearest images in fractional coordinates are unique away from one half. Below 200 atoms every atom i gets its own renumbering of the copies (block c of atom j goes to block c - m_j + m_i, modulo the number of copies per direction), which fixes atom i and keeps all displacements; C77 is then applied to it, in `C78_exact` for every search covered there.

At least 200 atoms: orthogonal and skewed cells, all methods that compare all pairs (C78_wrapping_partial). Any number of atoms, padded or not (C78_small, C78_exact): numeric cutoffs and the adaptive search, with cell lists in the conditions of C11; neighbours are compared up to which periodic copy is meant. SANN and number searches give the same distances and, up to ties, the same neighbours (C78_number, C78_sann). Missing: which of equally distant atoms these list, and that they fail alike (below 200 atoms or with cell lists).

Theorems: `C78_wrapping_partial`, `C78_small`, `C78_exact`, `C78_number`, `C78_sann`, `compact_of_inside`

### C79 Surface atoms (partial)

Modelled: Model/Solids (cluster_atoms, largest_cluster).

How: flags after the largest-cluster pass, traced through the setter; two witnesses.

Holds for solid atoms with neighbours among sys.atoms. False for atoms that are not solid (always flagged, witness) and for periodic copies as neighbours in padded systems (skipped, witness).

Theorems: `C79_partial`, `C79_false`, `C79_false_padded`

### C80 Atom attributes read back (partial)

Modelled: Model/AtomApi: the Atom object with its arrays of 300 slots and the table of bindings.

How: induction over the assignments; the finite table of bindings is settled as a whole by kernel computation, values and objects are universally quantified.

All histories of successful assignments for attributes not given per neighbour. False for neighbor_distance, neighbor_vector, local_angles and sij (assignment silently ignored), for lists of another size, and for bonds (bound twice, so the number of solid bonds is unreadable).

Theorems: `C80_partial`, `C80_frame`, `C80_roundtrip`, `C80_new`, `C80_q`, `C80_q_errors`, `C80_allq`, `C80_qlm`, `C80_capacity`, `C80_names`, `C80_false_ignored`, `C80_false_size`, `C80_false_bonds`

### C81 Neighbour attributes describe the same neighbours (partial)

Modelled: Model/AtomApi: reset, append, assign.

How: invariant on the first slots of the arrays, induction over the appended neighbours.

After every search, whatever was held before, with the exact limit of 300. False for sij, which keeps the values of the previous neighbours after a new search (for every atom). False after assigning neighbors: vectors are those of the old neighbours (for every atom).

Theorems: `C81_partial`, `C81_weights`, `C81_sij`, `C81_false_sij`, `C81_false_assigned`

### C82 Comparison of atomic environments (partial)

Modelled: Model/Misc on top of Model/Voronoi; the tessellation is a parameter.

How: sorted distinct values and counting; the run traced through assignment, search and vector; two witnesses.

Volumes, numbers and the set of fingerprints: proved, end to end for orthogonal boxes. False: fingerprint i need not belong to volume i, and ValueError is raised if there are not as many fingerprints as volumes (witnesses).

Theorems: `C82_partial`, `C82_run`, `C82_false_pairing`, `C82_false_error`

### C83 Tetrahedral positions (partial)

Modelled: Model/Misc.

How: the loop as a filter, minimum and count as least element and cardinality; general theorem for the failure in orthogonal boxes.

Exact characterisation with direct_coordinates=False (end to end for orthogonal boxes), including IndexError for neighbours that are periodic copies. With the default True: ZeroDivisionError for every orthogonal box as soon as there is something to report, and wrong coordinates for skewed boxes.

Theorems: `C83_partial`, `C83_run`, `C83_direct`, `C83_false_direct`, `C83_false_skew`

### C84 Next neighbours (proved)

Modelled: Model/Misc (store_neighbor_info).

How: from C09_sound and C10_any (mutual neighbours).

All systems of any size (cell lists included), all cutoffs and filters.

Theorems: `C84_any`, `C84_next`

### C85 Analysis leaves the sample alone (proved)

Modelled: All analysis models together; Spec/History lists the calls.

How: an invariant (real atoms kept, replicas and box as rebuilt from them) preserved by each call, then induction over the history; Lemmas/Frame and Frame2 hold the frame of each function.

Induction over histories of nineteen kinds of calls, padded or not, orthogonal and skewed boxes. Calls modelled with Except are included when they return, the others also when they raise. Starts from a new System with one box and one list of atoms.

Theorems: `C85_history`

### C86 A neighbour search gives the same result at every point of a history (partial)

Modelled: find_neighbors after histories of the calls of C85.

How: the invariant of C85 also keeps the periodic copies unless the box is skewed and there are at least 200 atoms; then C16_partial. The counterexample follows the Voronoi branch of find_neighbors, which restores the box but not the atoms, and computes the distance of every copy to its atom in the restored box.

Holds for boxes with orthogonal vectors and for fewer than 200 atoms, all histories and methods. False for a skewed box with at least 200 atoms after a Voronoi search: the 26 periodic copies stay in the system while the box is reset, so a cutoff search gives every atom its 26 copies as neighbours at distance 0 (proved for every tessellation and every such input, with a concrete instance).

Theorems: `C86_partial`, `C86_false_voronoi`, `shear_chain`

### C87 A neighbour search that raises does not spoil the system (partial)

Modelled: Model/SearchState: find_neighbors with the state left by an exception; Lemmas/FailedSearch proves that its results agree with the model used elsewhere.

How: frame lemma for each search (Spec.searchRest), C16_partial for the recovery; the loop of the search by number is split at the first atom with too few candidates.

Proved: everything but the neighbour data and search settings is kept, and a later search has the same outcome as without the failed call. False for the neighbours: a rejected threshold clears all neighbours while they still count as found, so calculate_q runs and gives NaN; a search by number that gives up leaves the first atoms with new neighbours and the others with none (exact characterisation and witness set up through the API). Voronoi searches are not covered.

Theorems: `C87_partial`, `C87_cleared`, `C87_false`, `C87_mixed`, `C87_false_mixed`

### C88 find_solids with clustering returns the largest cluster of solid atoms (partial)

Modelled: `findSolids` with `cluster = true` (Model/Solids): argument checks, `calculate_q`, bond numbers, solid flags, then `clusterAtoms` with the condition `solid`.

How: `findSolids_cluster` splits the call into `find_solids(cluster=False)` and `cluster_atoms`; `cluster_after` generalises C25 to any state that still has the neighbour lists of the search; C26 gives the size. Success (`C88_run`) follows from C24 and C25_succeeds.

Proved for every successful cutoff search (at most 2300 atoms, or cell lists in the conditions of C11) followed by find_solids with clustering: same solid atoms and bond numbers as without clustering, ids are the connected components of the solid atoms, the value returned is the size of the largest one. C88_run: the call succeeds for all arguments in range. Missing: chains through periodic copies in padded systems (C25_false_padded) and the flags when no atom is solid (C26_false).

Theorems: `findSolids_cluster`, `C88_partial`, `C88_run`

### C89 An interrupted dump file is not taken for a complete one (partial)

Modelled: `readSnap` and `writeSnap` (Model/Dump); an interrupted write is a prefix of the lines, the last of which may be incomplete.

How: `readSnap_steps` inverts the reader; reading commutes with `take` once the header is complete (`C89_cut`). Header cuts leave no rows, so the assignment raises (`C89_header`). A cut inside the last number of a row is not covered: the text of the number is left to the codec.

Proved: a file that ends within its nine header lines raises, and so does a row that lacks a needed column. False otherwise: every readable dump, cut after any complete row, is read without error as a smaller system, because the number of atoms in the header is not compared with the number of rows.

Theorems: `C89_header`, `C89_row`, `C89_cut`, `C89_false`

### C90 Atoms beyond the cutoff have no influence (proved)

Modelled: `findNeighbors` with a cutoff, `calculateQ`, `findSolids`; the two systems are arbitrary, `Spec.AgreeNear` compares positions and types.

How: the neighbour list is a filter of the atoms, so atoms that differ are filtered out in both systems; the values of q and of the bonds are functions of the lists of the atom and its neighbours.

Proved for all systems of at most 2300 atoms (padded or not, any box), all cutoffs and filters; C90_api states it through the calls of the API for 200 to 2300 atoms. C90_large_q and C90_large_solids allow cell lists in the conditions of C11, where the order of the neighbours may change; outside these conditions the lists themselves are wrong (C11).

Theorems: `C90_q`, `C90_averaged`, `C90_solids`, `C90_api`, `analyse_runs`, `C90_large_q`, `C90_large_solids`

### C91 A larger cutoff, padding or number only adds neighbours, and clusters only merge (partial)

Modelled: `findNeighbors` (cutoff, number, adaptive) and `clusterAtoms`.

How: filter of a filter; `take` of `take` on the same sorted candidates; monotonicity of the adaptive cutoff in the padding; for clusters, monotonicity of the reflexive transitive closure with C25_partial. Props/MonotoneFalse: both searches run on a system with two cells along an axis; the number of visits of a pair is bounded by 27, so the arrays are not overrun.

Cutoff searches: all systems of at most 2300 atoms, and larger ones under the conditions of C11 up to the order of the lists (C91_large). Searches by number and adaptive searches: also with cell lists under the conditions of C11. Clusters: all systems with an exact search (at most 2300 atoms, or the conditions of C11), padded or not. False outside these conditions: with two cells along an axis the larger cutoff lists a neighbour twice, the smaller one once (witness, both searches succeed).

Theorems: `C91_cutoff`, `C91_large`, `C91_number`, `C91_adaptive`, `C91_clusters`, `C91_false_cells`

### C92 Results depend on the crystal, not on the cell chosen to describe it (partial)

Modelled: `buildSystem` (with padding), `findNeighbors` with a cutoff, `calculateQ`, `findSolids`; the crystal is the set `Spec.crystal` of positions and types.

How: `C92_neighbours` characterises a neighbour list by the crystal alone; two such lists without repetitions are permutations of each other, neighbours at the same place again see the same crystal, and all sums are independent of the order. `build_props` shows that every built system represents its crystal. For the other searches: a sorted list of the n nearest atoms is determined in its distances by the numbers of crystal atoms within each radius (`nearest_dists`).

Proved for orthogonal and skewed boxes, padded or not, any number of atoms (cell lists in the conditions of C11), positions at most one and a half cells apart, no atom listed twice, cutoffs up to half the heights of the stored box. Beyond that cutoff it is false (C92_range_needed): an atom's own periodic copy is never a neighbour. The search by number gives the same distances and the same neighbours except for ties at the largest distance (C92_number), the adaptive search the same cutoff and neighbours (C92_adaptive), as long as the atoms that count are within that range; SANN searches that succeed give the same distances, cutoff and, up to ties, neighbours (C92_sann).

Theorems: `C92_q`, `C92_solids`, `C92_api`, `C92_number`, `C92_adaptive`, `C92_sann`, `C92_entropy`, `C92_chi`, `C92_range_needed`, `C92_neighbours`

### C93 A slice of a trajectory converts to one ASE object per frame (partial)

Modelled: `Codec.sliceToAse` (Model/AseTrajectory) on top of `readDump`, `getBlock` and `convertSnap`.

How: C41_columns gives what is read from a frame (independent of how the frame is described), C73_partial the conversion; induction over the selected blocks. C71_cell does the same for skewed boxes. `C93_case` runs the theorems on a file of three frames.

Proved for orthogonal and skewed boxes, plain or scaled coordinates, when every selected frame has atoms of all types 1..number of species. False otherwise: a single selected frame in which one species has no atom (or with another number of types) makes the whole call raise ValueError, whatever the other frames. Without species the call always raises ValueError.

Theorems: `C93_partial`, `C93_cell_partial`, `C93_false_types`, `C93_false_cell`, `C93_default`, `C93_case`

### C94 embed_in_cubic_box encloses the cell (partial)

Modelled: `System.embedBox` and its use in `findVoronoi` (skewed box, 200 atoms or more).

How: the products of the box vectors determine the LAMMPS form of the cell (`lammps_unique`); the formulas of the code are its entries (`C94_shape`); `bounds_lammps` of C08 gives the extents. `C94_voronoi` follows the state up to the call of the tessellation.

Proved for cells with the first vector along x and the second in the xy plane. For every other orientation the box is the one around the turned cell (C94_turned), while the atoms are not turned: false there, with a cell that extends over 1300 along z and gets a box of 100, and a Voronoi search that is given two atoms 300 apart as the same point of its container.

Theorems: `C94_shape`, `C94_turned`, `C94_partial`, `C94_voronoi`, `C94_false`, `C94_false_voronoi`

### C95 Perfect crystals: coordination numbers and Steinhardt values of the structure (proved)

Modelled: `makeCrystal`, `buildSystem` (with padding), `findNeighbors` with a cutoff (brute force and cell lists), `calculateQ`.

How: the sites are integer vectors in quarters of the lattice constant; the neighbours of each site up to the second shell form a finite table (checked by the kernel, and complete by `near_ball`, which bounds the lattice coordinates of every atom within reach); `C92_neighbours` shows that the search returns exactly the crystal atoms within the cutoff. q_l is the Legendre pair sum of C61, again a finite table of rational numbers; scaling by the lattice constant cancels.

For cutoffs that fit into the box (Spec.RangeFits): at most half of every stored edge, a third with more than 2300 atoms. This always holds below 200 atoms and with five repetitions in every direction (fits_reps). The values of a15 are not stated for calculate_q; hcp is not cubic and not covered.

Theorems: `C95_coordination`, `C95_q`, `fits_reps`

### C96 Common neighbour analysis recognises every perfect crystal (proved)

Modelled: `makeCrystal`, `buildSystem`, `calculateCna` (adaptive and with a lattice constant).

How: `cna_fresh` (C63) describes the label of an atom by its 14 nearest atoms and the bonds among them; `nearest_take` and `shell_take` show that the first 12 or all 14 are the shells of the structure in some order; bonds are distances between integer vectors (`signatures_map`), so the signatures form a finite table checked by the kernel (`fcc_table`, `bcc_table`, `hcp_table`). For hcp the distances depend on c/a; the table holds the coefficients of 1 and (c/a)^2 and the cutoff is compared for the whole range. `enough_ball` shows that the guessed search radius reaches 14 atoms. `C96_diamond` uses C64: the four nearest atoms, their four nearest atoms and again a finite table of steps.

For boxes that fit (Spec.HalfFits: twice the distance between two neighbours of one atom that the analysis has to tell apart is at most the stored edge). fcc: always below 200 atoms (C96_fcc_small), three repetitions above. Diamond above 4000 atoms (cell lists): lattice constant at least 1e-6 and five repetitions in every direction. The call is shown to succeed, and both the labels and the returned counts are stated.

Theorems: `C96_fcc`, `C96_fcc_small`, `C96_bcc`, `C96_hcp`, `C96_diamond`

### C97 Centrosymmetry of perfect crystals (proved)

Modelled: `makeCrystal`, `buildSystem`, `calculateCentrosymmetry`.

How: C30 describes the value as the sum of the nmax/2 smallest pair sums of the nmax nearest atoms; these atoms are whole shells (`whole_atom`, `hcp_shell`). Zero: the shells are closed under inversion (`opposite_points`). Otherwise `smallest_two` evaluates the sum of the smallest pair sums from the numbers of pairs with sum zero and with the next value, which `pairSet_count` reads off finite tables (`bonds_table`, `hcp_pairs`).

For boxes that fit (Spec.HalfFits with radius 3/2; for hcp a radius with square at least 1.39 + (c/a)^2/4): always below 200 atoms except for very elongated cells, three repetitions above. The calls are shown to succeed and the values are exact, for every valid sort.

Theorems: `C97_zero`, `C97_diamond`, `C97_hcp`

### C98 Small displacements do not change neighbours and structures (proved)

Modelled: `makeCrystalNoise` (the random numbers are an arbitrary sequence), `buildSystem`, `calculateCna`, `findNeighbors` with a cutoff.

How: `shifted_build`: two systems built from atoms that differ by at most d hold atoms, including the copies, that differ by at most d, and `Shifted.dist`: all distances differ by at most 2 d (the distance is the shortest one over the images, `dist_le`). The perfect crystal has gaps between its distances; `nearest_same` shows that the shells stay the same, `sum_close` bounds the adaptive cutoffs, and `signatures_transfer` shows that the signatures are those of the perfect crystal with a cutoff inside the gap, so that the tables of C96 apply. With bcc and a given lattice constant the first cutoff is too close to a shell for this; there the ninth signature is shown not to be one of fcc, hcp or ico (`bcc_bad_lattice`). For the centrosymmetry the ideal opposite pairs stay in the list and the vectors of each pair add up to at most 4 d (`centro_close`); as the code sums the smallest values, these pairs bound the result (`smallest_le`).

The bounds on d are sufficient, not the largest possible ones. Box conditions as in C95 and C96. Above 2300 atoms C98_coordination assumes that no coordinate is less than 1e-6 below zero, where the cell lists misplace atoms (C11); C98_cutoff takes the condition on cell lists as a hypothesis. hcp and diamond with noise are not covered.

Theorems: `C98_noise`, `C98_cna_fcc`, `C98_cna_bcc`, `C98_coordination`, `C98_cutoff`, `C98_centrosymmetry`

### C99 Perfect crystals are solid throughout, one cluster, and without disorder (proved)

Modelled: `makeCrystal`, `buildSystem`, `findNeighbors` with a cutoff, `findSolids` (with and without clusters), `calculateQ`, `calculateDisorder`.

How: C21_legendre writes s_ij as a ratio of sums of Legendre polynomials over pairs of bonds, which are rational for the shells of the structures and agree between any two shells of a structure (`cross_table`, checked by the kernel for the finitely many shells and degrees); C22_partial then gives bond numbers and the verdict. For clusters C88_partial asks for chains of neighbours: the sites of one cell, and those of two adjacent cells, are connected without leaving the box (`connected_table`), and an induction over the cells joins every site with the origin (`block_connected`). For the disorder all vectors agree because the neighbours are permutations of one shell (C35_partial), and they are not zero by C95_q.

For cutoffs that fit into the box (Spec.RangeFits, as in C95). Disorder without diamond, whose two kinds of sites have mirrored surroundings. All calls are shown to succeed.

Theorems: `C99_solid`, `C99_cluster`, `C99_disorder`

### C100 Bond order parameters change continuously when the atoms move (proved)

Modelled: `buildSystem`, `findNeighbors` with a cutoff, `calculateQ` (plain and averaged), `makeCrystal`.

How: Lemmas/QClose: 1 - P_l(x) is at most l(l+1)/2 (1-x), so the norm of the difference of the harmonics of two directions is at most sqrt(l(l+1)/2) times their angle's chord; the triangle inequality carries this through the weighted means. Displaced (C98) gives the same neighbours and vectors that differ by at most 2d, including across the periodic boundary. Solids: the vectors of even degree of all atoms of the perfect crystal agree (cross_table), so those of two displaced atoms differ by at most 2K, and the polarisation identity bounds s_ij from below (`sij_low`).

Orthogonal boxes, searches with a cutoff of at most half of each edge of the stored box. Beyond 2300 atoms the conditions of the cell lists (Spec.PairsExact) are assumed of both systems; the crystal versions assume there only that no coordinate is less than 1e-6 below zero, where the cell lists misplace atoms, and show that the calls succeed. The averaged values of diamond are left out because C95 does not give them.

Theorems: `C100_q`, `C100_continuous`, `C100_crystal`, `C100_solid`, `C100_cluster`

### C101 The attributes of a new Atom have defined values (partial)

Modelled: `RawAtom.new` (the constructor, with the content of the memory as a parameter), `getAttr` through the table of registrations.

How: One case per attribute; the table of registrations is checked to be covered. The false part chooses the memory.

Proved for position, id, type and 33 attributes. False for the twelve numbers condition, mask, cutoff, avg_sij, disorder, avg_disorder, structure, volume, avg_volume, angular, avg_angular and centrosymmetry, and for vorovector: the constructor does not set them and every value is possible. startValues_complete: no attribute is left out.

Theorems: `C101_partial`, `C101_false`

### C102 Chi parameters of perfect crystals (proved)

Modelled: `makeCrystal`, `findNeighbors`, `calculateChi`.

How: C95 gives the neighbour vectors up to order; the pairs are counted over the table of shells by kernel evaluation, and every cosine is rational.

In exact arithmetic. With rounding, opposite neighbours may be missing from the first entry, see C31_false_rounding.

Theorems: `C102_chi`

### C103 Distances and neighbours are right up to rounding (proved)

Modelled: Model/Floating: `flImage`, `flDistance`, `flFindNeighbors`, the functions of system.cpp 82-95, 245-432 and 725-781 with a rounding function after every operation.

How: Relative error of one rounding (Lemmas/Floating), exactness of the computed box length (`fl_sqrt_sq`), case analysis of the nearest-image step, then the pair loop as for C09. Crystals: the computed list lies between the exact ones for two cutoffs, which C98 counts.

Without overflow and underflow, every operation rounded to nearest in the order written in the code (no fused operations). Searches: direct loop only.

Theorems: `C103_symmetry`, `C103_accuracy`, `C103_exact`, `C103_neighbors`, `C103_same`, `C103_crystal`

### C104 Angular criterion of a perfect diamond crystal is zero (partial)

Modelled: `makeCrystal`, `findNeighbors`, `calculateAngular`.

How: The four neighbour vectors (C95) belong to the stored indices (C09_sound); their scalar products are checked over the table of shells; then C59. Small crystals: the atom with the largest x has a neighbour further right, which cannot be a real atom.

Proved for at least 200 atoms, in exact arithmetic. With fewer the call raises IndexError for every crystal, because an atom at the border has a periodic copy as neighbour.

Theorems: `C104_partial`, `C104_false_small`

### C105 Short range order of perfect ordered compounds (proved)

Modelled: `makeCrystal`, `findNeighbors`, `calculateSro`.

How: The distances and types of the neighbours (C95, with types) are a table of 14 or 18 vectors; the mean distance lies between the two shells, whatever the lattice constant; the numbers of atoms of each type are those of the basis times a factor, also with periodic copies; then C36.

In exact arithmetic.

Theorems: `C105_sro`, `C105_pmsro`

### C106 Atoms on the same site of a crystal get the same results (proved)

Modelled: `makeCrystal`, `findNeighbors` with a cutoff, `calculateQ`, `findSolids`, `calculateEntropy`, `calculateChi`.

How: The ideal crystal is invariant under shifts by whole cells, and for sc, bcc and fcc under shifts from any site to any other (a table of sites modulo cells); so the two atoms see the same crystal and C92 applies, extended by `C92_entropy` and `C92_chi`: entropy depends on the multiset of neighbour distances, the chi counts on the multiset of neighbour vectors.

In exact arithmetic.

Theorems: `C106_sites`, `C106_entropy`

### C107 In a binary alloy calculate_pmsro and calculate_sro agree (proved)

Modelled: `calculateSro`, `calculatePmsro`, `buildSystem`, `findNeighbors`.

How: The loop bodies agree atom by atom (the atoms of a shell that are not of the reference type are those of the other type; with delta the value is an identity of fractions), also where a neighbour index is out of range; the concentrations agree because padding multiplies the number of atoms of each type by the same factor. If single copies were changed through `set_atom`, the compositions differ and the statement does not apply.

In exact arithmetic. C107_binary is for any state in which the stored atoms have the composition of the real ones.

Theorems: `C107_binary`, `C107_system`

### C108 What is done with one System does not show in another (partial)

Modelled: Model/Sharing: several systems, `custom` dictionaries as numbered objects, `sys.atoms` and its setter copying references, `calculate_chiparams(angles)`. Left out: what a failed search does to neighbours (C87).

How: Invariant over histories: every stored atom has a dictionary of its own and systems share none; each call changes dictionaries of its own system only. The cosines: fold over the atoms, then C31. Counterexample by following six calls.

Proved: the cosines, and independence of systems for every history in which each system is given new atoms or its own. False when two systems are given the same atoms (sys2.atoms = sys1.atoms): copies of an atom share the custom dictionary, so calculate_chiparams(angles=True) on one system replaces the cosines shown by the other (for every two such systems, and in particular for all 200 or more atoms, boxes and searches).

Theorems: `C108_partial`, `C108_cosines`, `C108_plain`, `C108_false_shared`, `C108_false`

### C109 Types, ids and earlier results are only labels (proved)

Modelled: `assignAtoms`, `findNeighbors` (all methods), `calculateQ`, `getAtoms`.

How: Two runs in lockstep: the stored atoms have the same positions, neighbours and candidates, and two types are equal in one run exactly if they are in the other (Lemmas/Relabel); every loop of every search keeps this. The labels are related by a separate specification (`Spec.Relabelled`, `Spec.KeepsApart`).

All non-Voronoi searches, padded systems and cell lists included; in exact arithmetic. Which results do depend on the numbers of the types: C37, C73.

Theorems: `C109_labels`

### C110 calculate_q with a condition uses the neighbours on the same side only (partial)

Modelled: `calculateQ` with condition and clear_condition, `applyCondition`, `clearCondition`, `assignAtoms`, `getQvals`.

How: The state after the condition was written is determined atom by atom; the neighbours that take part are then those of the reduced lists (Spec.OnlySameSide), and equal participating neighbours give equal plain and averaged values (calculateQ_same). For padded systems: new copies have no neighbours, so one of the averaged vectors, or the own one, is NaN.

Proved for at least 200 atoms, in exact arithmetic. False for fewer: an atom whose neighbours are all periodic copies gets NaN as averaged value, whatever the condition. With clear_condition=True the condition of the same call has no effect (C110_cleared).

Theorems: `C110_partial`, `C110_refused`, `C110_cleared`, `C110_false_small`

### C111 The layout of a dump file does not matter (proved)

Modelled: `readDump` with `words` and `strip` (Python's str.split and str.strip).

How: A line laid out in any way (Spec.Layout, with its own list of whitespace characters) is split into its fields (induction on the layout); the reader uses lines 5 and later only through their fields and line 3 only stripped.

The Unicode spaces from 0x1680 on are not covered: fields and separators have smaller numbers.

Theorems: `C111_layout`

### C112 Stricter arguments of find_solids never give more solid atoms (partial)

Modelled: `findSolids` with the criteria of `solid1` and `frenkel1`, followed by `clusterAtoms`.

How: The correlations and bond numbers of two calls with the same threshold are equal, so the criteria of C22_partial compare atom by atom. For clusters, links between solid atoms of the stricter call are links of the looser call (C88_partial), so every component lies in a component, and counting the atoms of the largest one gives the number. The counterexample for threshold is an atom whose only bond has the correlation 1/2 exactly.

Proved for the number or share of bonds and for avgthreshold, for single atoms and for clusters after a cutoff search; false for threshold (C112_false_threshold). comparecriteria set by hand is not covered.

Theorems: `C112_partial`, `C112_clusters`, `C112_false_threshold`

### C113 find_solids gives the same answer when it is called again (partial)

Modelled: `findSolids` with and without `clusterAtoms`, `calculateDisorder` and `calculateQ` in any order.

How: Induction over the history: the neighbours, conditions and flags of the system that enter the correlations are unchanged, so the second run computes the same values. C113_cleared: for at least 200 atoms clustering too keeps neighbours, order and flags (`StillNear`), and clearing sets all conditions to the 0 they had after the search. The negation: after clustering the condition is the solid flag; an atom all of whose neighbours have the other flag has no participants, its vector is 0/0, and the correlation of every neighbour with it is NaN, hence the mean is NaN and the neighbour is not solid. The witness is a row of 200 atoms, with all correlations 1 by the Legendre form C21_legendre.

Proved for histories of find_solids(cluster=False), calculate_disorder and calculate_q without a condition; for at least 200 atoms also after clustering with any condition, if the condition is then cleared with calculate_q(clear_condition=True) (C113_cleared). False with the default cluster=True, which leaves the condition on the atoms: C113_shrinks says which atoms stop being solid in every system, C113_false is a row of atoms in which the second atom does.

Theorems: `C113_partial`, `C113_cleared`, `C113_shrinks`, `C113_false`

### C114 Types, ids and earlier results are only labels for find_solids (proved)

Modelled: `assignAtoms`, `findNeighbors` and `findSolids` in sequence (`solidsOn`).

How: The relation of C109 between the two systems after the search gives equal neighbours, conditions and flags; find_solids depends on these only (`findSolids_same`), and its checks on `neighbors_found`.

All non-Voronoi searches, padded systems and cell lists included; in exact arithmetic.

Theorems: `C114_labels`

### C115 A stricter clustering gives clusters within clusters (proved)

Modelled: `findNeighbors` with a cutoff and `clusterAtoms`.

How: Links of the second call are links of the first (distance, filter, condition, separate cutoff), so chains are chains; C25_partial turns both into cluster ids, and C26_partial with a count of the ids gives the number.

Cutoff searches: at most 2300 atoms, or cell lists in the conditions of C11. In exact arithmetic.

Theorems: `C115_nested`

### C116 cluster_atoms does not depend on earlier clusterings (partial)

Modelled: `clusterAtoms` after `findSolids`, `clusterAtoms`, `calculateDisorder` and `calculateQ` in any order.

How: The depth-first search depends on neighbours, copies, conditions and the cutoff stored with each atom only (`cluster_labels`); all but the last are restored by the call (`StillNear`). The stored cutoff is overwritten only when a cutoff is given, which proves the negation for every system; the witness is a row of 200 atoms clustered with cutoff 1/2.

Proved for at least 200 atoms and a cutoff given in the call. False for the default cutoff: after a call with cutoff=c, calls without cutoff use c (C116_leftover, every system; C116_false, a row of atoms). Fewer than 200 atoms are not covered.

Theorems: `C116_partial`, `C116_leftover`, `C116_false`

### C117 calculate_entropy does not depend on earlier analyses (partial)

Modelled: `calculateEntropy` after `findSolids`, `clusterAtoms`, `calculateDisorder` and `calculateQ` in any order.

How: The global density needs the box and the number of atoms, the integrand the neighbours; none of them changes (`explored_box`, `explored_kept`). With local=True, C32_partial with the cutoff left by the clustering gives the value; as a function of the density it is strictly convex, so of three clustering cutoffs two give different entropies. For systems with stored copies the real atoms keep their neighbours and the box of the user stays (`explored_inv`, `explored_getBox`).

With local=False: the entropy for systems of any size, its averages for at least 200 atoms. False with local=True: the density is taken from the cutoff of an earlier clustering (C117_leftover, every system; C117_false, a row of atoms). Averages of fewer than 200 atoms are not covered.

Theorems: `C117_partial`, `C117_any_size`, `C117_averages`, `C117_leftover`, `C117_false`

### C118 angular criteria and chi parameters do not depend on earlier analyses (partial)

Modelled: `calculateAngular` and `calculateChi` after `findSolids`, `clusterAtoms`, `calculateDisorder` and `calculateQ` in any order.

How: Both are functions of neighbour lists, positions and the minimum image map (`angular_run`, `chi_run`); none of the calls changes these (`explored_kept`, `explored_places`; with stored copies `explored_inv` and the frame results of C85).

C118_chi, C118_angular: the same values for systems of any size, when both calls succeed; C118_angular for histories that begin with setting the box and assigning the atoms. C118_partial: at least 200 atoms and neighbour lists in range, both calls do succeed. That success before implies success after is not proved for fewer than 200 atoms.

Theorems: `C118_partial`, `C118_chi`, `C118_angular`


## Trusted base

* Lean 4.33.0 kernel and Mathlib.  `#print axioms` over all theorems of MANIFEST.json gives
  `propext`, `Classical.choice`, `Quot.sound` (the theorem `exists_tiling` needs only `propext` and `Quot.sound`).
  No axiom is added, there is no `sorry`, `native_decide` or `bv_decide`.
* The hand translation from Python/C++ to Lean (each definition cites its source lines).
* Real arithmetic instead of IEEE doubles; unbounded integers.
* The specifications in `Verif/Spec` and the statements in `Verif/Props`.

### What is modelled

All functions of core.py, system.cpp, crystal_structures.py, traj_process.py, trajectory.py, formats/lammps.py,
formats/ase.py, formats/mdtraj.py and formats/vasp.py except those listed next.

### What is not modelled

* core.py: `test`, `show`, pickling, `prepare_pickle`, progress printing.
* system.cpp: the non-recursive `find_clusters` (1756-1780), `get_neighbors_from_temp`,
  `calculate_complexQLM_6`, `get_triclinic_params`, `gbox`, and one-line getters and setters.
* atom.cpp: the getters and setters are modelled in Model/AtomApi on a separate raw object; the `System` models use the record `Atom`,
  whose neighbour list C81 relates to the arrays.
* trajectory.py: `__repr__`; file opening and seeking (a file is a list of lines).
* formats: stubs that only raise.
* misc.py: printing, warnings and the conversion of the result of `compare_atomic_env` to an array of strings; routines.py (LAMMPS), visualization.py.
* pybind11 conversions, memory management, Voro++, LAMMPS, ASE, numpy internals, gzip, plotting, performance.

## Findings (bugs and disagreements found while reading)

Names in brackets are theorems that prove the finding of the model.

Box and distances
1. `box` setter never clears `triclinic`, so an orthogonal box assigned later keeps the triclinic mode [C04_false_triclinic_sticks].
2. Skewness is detected by a sum of cosines that can cancel [C04_false_cancelling_cosines].
3. `actual_box` is kept after padding: the getter returns the old box, and the next `sys.atoms =` restores it [C04_false_getter_stale].
4. `get_abs_distance` wraps fractional coordinates once, which is not the minimum image in skewed cells [C03_false].
5. Orthogonal boxes not aligned with the axes are treated as axis-aligned [C03_false_rotated_orthogonal].

Atom store
6. Ghost atoms added to a system without ghosts are dropped while counters are increased [C07_false].
7. The dump reader numbers `loc` from 1 and `repeat` gives every copy loc 0, so `set_atom` edits another atom [C08_false_dump, C08_false_repeat].  Getting and setting a ghost overwrites atom 0.
8. For fewer than 200 atoms every write-back `self.atoms = atoms` regenerates ghosts without neighbours; averaged q becomes NaN [C57_false].
9. Write-back after `add_atoms` on a padded system can change the total number of atoms.
10. `calculate_q(condition=...)` with fewer than 200 atoms regenerates ghosts whose `condition` is uninitialised.

Neighbour searches
11. Cell lists with one or two cells along an axis list neighbours several times; zero cells divides by zero [C11_false_two_cells, C12_false_cells, C13_false_cells].
12. Cell lists ignore triclinic geometry and put coordinates in (-1e-6, 0) into cell 0.  The cell version of the candidate list uses `<`, the brute version `<=`.
13. SANN includes the atom that breaks its rule, misses the fourth nearest and reads past the candidate list [C14_false].
14. `filter` is ignored by `number` and `sann` and misread by `voronoi`, where it leaves gaps in the slots [C15_false_number, C15_false_sann, C15_false_voronoi].
15. `voronoiused` is not reset by the adaptive search, so q_l is not normalised after a Voronoi search [C16_false_voronoi].
16. The cutoff of an atom is stale when a search finds no neighbours, uninitialised after number and voronoi searches [C16_false_cutoff].
17. A failed search leaves partial neighbours and the old `neighbors_found`.

Steinhardt parameters, solids, clusters
18. `get_qlm` for m < 0 is not conjugated and l is not checked [C62_false].
19. A `set_q` list call that raises leaves the atom modified [C52_false_partial_write].
20. `calculate_frenkel_numbers` has a dangling else: bonds on both sides of the threshold are counted [C22_false_threshold]; a criterion other than 0 counts none; the comparison with the minimum number is strict [C22_false_minimum].
21. `right` is ignored by find_solids [C23_false].
22. `calculate_disorder` uses the loop counter as atom index, accumulates over calls and uses stale q vectors [C35_false].
23. Without any cluster `largest_cluster` keeps the stale `maxclusterid` (initially -1) and flags all atoms [C26_false].
24. Clusters skip ghost neighbours, so links across the boundary of padded systems are lost [C25_false_padded].  Deep recursion can overflow the stack.  `cluster_atoms` checks the condition value of atom 0 only.

CNA, centrosymmetry, other order parameters
25. `calculate_cna` does not clear temporary candidate lists; a second call changes results [C29_false].
26. With a lattice constant it reads 14 candidates without a check [C28_cna_overrun].  The result of the number search is ignored.
27. The smallest bond count starts at 8 [C27_false].  fcc, hcp and ico atoms keep 12 signatures but 14 neighbours.
28. Diamond: second-neighbour lists can hold duplicates; atoms with fewer than 12 entries keep a stale cutoff.
29. `calculate_centrosymmetry`: a failed search is unnoticed and read out of bounds [C30_errors]; it replaces neighbours without setting `neighbors_found`.
30. `calculate_angularcriteria` and energy averages raise IndexError for ghost neighbours [C59_false_padded, C60_false_padded].
31. `entropy(local)` keeps the density of the first atom for all [C32_false].
32. `trapezoid_integration` omits an interior node [C33_false].  Atoms without neighbours give NaN.
33. The switching function is NaN at rij = ra [C34_switch_nan]; `ra=None` raises TypeError after entropies were assigned.
34. A left-handed triclinic cell gives a negative volume and density (NaN entropies, negative RDF).
35. RDF counts ghosts but normalises by real atoms [C38_false_padded].
36. `calculate_energy` without neighbours overwrites the freshly found neighbours and averages nothing [C60_not_found, C60_false].
37. `calculate_pmsro` indexes concentrations by `type-1` [C37_false].
38. `calculate_sro` accepts shell numbers other than 1 and 2; averages then raise ValueError.
39. `get_concentration` returns counts, not fractions.

Voronoi
40. `vertex_positions` is appended to without clearing [C65_false].
41. The origin passed to Voro++ for vertices is uninitialised.
42. Padded triclinic systems are tessellated in a rectangular container; with at least 200 atoms the box is restored unscaled.

Crystals
43. `remap_atoms` on a padded system drops ghosts or changes the distance box [C66_false].
44. `extract_cubic_box` scales the box of the system [C68_false] and need not return a period [C67_false].

Files
45. Skewed boxes are lost on writing a dump [C42_false_triclinic]; custom values with spaces shift columns [C42_false_space].
46. Truncated dumps are read silently; a custom key "ATOMS" or "ITEM:" reads the last columns.
47. Triclinic dumps are shifted by the bounding-box corner, not the cell origin (a common translation).
48. `to_ase` stores species permanently in the shared `custom` dictionary [C73_false_sticky]; type 0 maps to the last species [C73_false_zero], gaps give IndexError [C73_false_gap].
49. Reading a second file into a System that held fewer than 200 atoms keeps the old cell [C48_false_reused].
50. The ASE fallback calls the non-existent `warnings.info`: always TypeError [C51_false_read, C51_false_write].
51. The legacy POSCAR writer has no species line.

Trajectories
52. `Timeslice.__add__` mutates its left operand; `a + a` and a sum with the first slice repeated never end [C45_false_operand, C45_false_self, C45_false_sum].
53. `Timeslice.to_dict` discards edits and unloads blocks [C46_false_to_dict].
54. `Trajectory.iter('descending')` starts one past the last block and never reaches 0; ascending with n > nblocks fails [C47_false_descending, C47_false_ascending].
55. Negative block indices are wrong and `get_block(nblocks)` returns stray lines when the file has stray lines [C44_false_tail].
56. Loading fails for trajectories with one atom [C46_false_single]; a written edited block gets timestep 0 and needs id and type columns [C46_false_no_id].
57. `to_system` and `to_ase` of timeslices ignore edits.

Elsewhere
58. `atom.bonds` is bound twice in atom_binding.cpp (298, 420); the second binding returns the CNA array.
59. `find_tetrahedral_voids` computes box extents as `box[i][1]-box[i][0]`: for every orthogonal box the default call fails with ZeroDivisionError once an atom is found, for skewed boxes the numbers are wrong [C83_false_direct, C83_false_skew].
60. Left-handed skewed cells: the signed volume makes the guessed search radius negative, so `number`, `adaptive` and `sann` searches fail [C75_false_mirror].
61. With fewer than 200 atoms a box whose entries sum to zero is refused with ValueError, although it may be a rotated valid box [C75_false_sum].
62. Atoms that are not solid are always flagged as surface atoms, even without neighbours; neighbours that are periodic copies of a small system are skipped, so a solid atom at the boundary next to a liquid one is not flagged [C79_false, C79_false_padded].
63. `bonds` is bound twice in atom_binding.cpp; the second registration wins, so the number of solid bonds documented under this name cannot be read, and assigning a number is a TypeError [C80_false_bonds].
64. Assigning `neighbor_distance`, `neighbor_vector`, `local_angles` or `sij` succeeds and does nothing [C80_false_ignored].
65. Assigning weights of another length than the coordination keeps stale entries or drops values; beyond 300 it writes out of bounds [C80_false_size].
66. `set_q` with a list writes the values before the first bad number and then raises; `get_qlm` does not check its argument [C80_q_errors, C80_qlm].
67. Assigning `neighbors` leaves the vectors and angles of the old neighbours [C81_false_assigned].
68. `Atom()` has type 0 by default, documented as 1 (atom_binding.cpp).
69. `compare_atomic_env` makes volumes and fingerprints unique separately, so they are paired wrongly; it fails with ValueError (numpy 1.24 and later) when their numbers differ, and otherwise returns all numbers as strings [C82_false_pairing, C82_false_error].
70. `find_tetrahedral_voids` looks up neighbours in `sys.atoms`; a candidate in a small system with a periodic copy as neighbour gives IndexError [C83_partial, second part].
71. `store_neighbor_info` is not called by a search and its lists are not cleared by one, so they describe the search before the last call (read only).
72. `find_neighbors(method='voronoi')` on a skewed box with at least 200 atoms adds 26 periodic copies of every atom and enlarges the box, then restores the box only. The copies stay in the system with `ghosts_created` set. A following cutoff search gives every atom its 26 copies as neighbours at distance 0 (`C86_false_voronoi`), so coordination numbers, bond order parameters and everything derived from them are wrong until the atoms are assigned again.
73. After such a search any analysis that writes the atoms back (for example `calculate_vorovector`) drops the copies but leaves `ghosts_created` set, so a second Voronoi search runs without periodic copies and without the cubic embedding box (read only).
74. In skewed boxes with more than 2300 atoms (4000 for the other methods) the cell lists are filled from Cartesian coordinates (system.cpp 534-566) while distances use fractional ones. Atoms that meet across a slanted face fall into cells that are not adjacent, so neighbours are silently lost (`C11_false_skew`: two atoms at distance 1, cutoff 10, the search succeeds and every neighbour list is empty).
75. `find_neighbors` clears all neighbours before it looks at its arguments and does not reset `neighbors_found`. After a rejected threshold (ValueError) the system has no neighbours but still counts as having them: `calculate_q` then returns NaN for every atom instead of raising [C87_cleared, C87_false]. A search by number that raises RuntimeError leaves the atoms before the failing one with their neighbours and the others with none [C87_mixed, C87_false_mixed].
76. `find_neighbors` with a method name other than cutoff, number or voronoi raises nothing: it clears all neighbours and sets `neighbors_found` (read only).
77. `cluster_atoms`, and `find_solids` with its default `cluster=True`, leave the condition on the atoms. Every later `calculate_q` (and everything derived from it) then skips neighbours with another condition until the neighbours are searched again. An isolated solid atom in a liquid has q = NaN afterwards [C57_cluster, C57_false_cluster].
78. `calculate_sro` and `calculate_pmsro` accept any value of `shells`; other values than 1 and 2 calculate nothing, and with `average=True` fail with a shape error after the atoms were assigned again [C24_shells, C24_false_shells].
79. With `comparecriteria` set to 1 (the flag is exposed to Python) the dangling `else` in `calculate_frenkel_numbers` counts no bonds at all, so no atom is ever solid [C23_manual].
80. A dump file that ends after any complete row (interrupted write, full disk) is read without an error as a system with fewer atoms; the count in the header is not checked [C89_cut, C89_false].
81. An atom's own periodic copy is never its neighbour, and of several copies of another atom only the nearest is, so with a cutoff beyond half the height of the stored box neighbours of the crystal are missing, without an error [C92_range_needed].
82. `Timeslice.to_ase(species)` raises ValueError for the whole selection if in one selected frame one of the species has no atom, because the number of species is compared with the number of types present in each frame; the default `species=None` never works [C93_false_types, C93_default].
83. `embed_in_cubic_box` computes the box around the cell turned to the LAMMPS orientation, but the atoms are not turned. For other orientations the box does not contain the cell, and Voronoi searches with at least 200 atoms in such a skewed box are given different atoms as the same point [C94_false, C94_false_voronoi]. The flag for skewed boxes and the rotation stay those of the old cell.
84. A new neighbour search does not reset `sij`: until `find_solids` runs again, `sij` has one entry per new neighbour holding the values of the previous neighbours [C81_false_sij].
85. The constructor of Atom leaves condition, mask, cutoff, avg_sij, disorder, avg_disorder, structure, volume, avg_volume, angular, avg_angular, centrosymmetry and vorovector uninitialised [C101_false].
86. The computed cosine of exactly opposite neighbours can be -1.0000000000000002; numpy.histogram then drops the pair, because it lies outside the range of the bins. Whether this happens depends on the lattice constant. The project's own test for bcc (tests/test_chiparams.py) asserts counts that add up to 87 instead of 91 [C31_false_rounding, which derives exactly these counts].
87. `calculate_angularcriteria` raises IndexError for every crystal of fewer than 200 atoms made with `make_crystal` (first-shell cutoff), since border atoms have periodic copies as neighbours [C104_false_small; see 30].
88. `custom` is a Python dictionary held by reference (atom.h 89), and copies of an `Atom` share it. After `sys2.atoms = sys1.atoms`, or when one list of atoms is given to two systems, `calculate_chiparams(angles=True)` on either overwrites the cosines of both, and so does any other change of `custom`, without assigning the atom back [C108_false_shared, C108_false].
89. `calculate_q(..., condition=f, clear_condition=True)` ignores `f`: the condition is erased before the calculation instead of after it [C110_cleared].
90. With fewer than 200 atoms `calculate_q(..., averaged=True, condition=f)` gives NaN for atoms whose neighbours are all periodic copies, even if `f` is the same for all atoms [C110_false_small; see C57].
91. Raising `threshold` in `find_solids` can make an atom solid: an atom whose only bond has the correlation 1/2 is not solid for threshold 1/2 and is solid for threshold 1 [C112_false_threshold; the cause is finding C22_false_threshold].
92. Calling `find_solids()` twice with the same arguments can give different solid atoms: the first call leaves the solid flag as condition, and the second computes the correlations only from neighbours with the same flag. An atom next to one whose neighbours all have the other flag stops being solid [C113_shrinks, C113_false; the cause is finding 77].
93. `cluster_atoms(..., cutoff=c)` and `find_solids(..., cutoff=c)` store `c` as cutoff of every atom (system.cpp 1807-1811). Later calls without a cutoff use `c`, although the documentation says that the cutoff of the neighbour search is used [C116_leftover, C116_false].
94. `calculate_entropy(local=True)` takes the volume of the density from the stored cutoff (system.cpp 2529), which `cluster_atoms(..., cutoff=c)` and `find_solids(..., cutoff=c)` replace by `c`; the neighbours counted are still those of the search. The local entropy then belongs to no sphere of the system [C117_leftover, C117_false].

