{
 "claims": [
  {
   "property": "C01",
   "status": "proved",
   "theorems": [
    "Pyscal.C01_min_image",
    "Pyscal.C01_range_needed"
   ],
   "note": "True minimum image for axis-aligned boxes and differences up to 3/2 box lengths; the range is shown to be necessary."
  },
  {
   "property": "C02",
   "status": "proved",
   "theorems": [
    "Pyscal.C02_symmetry"
   ],
   "note": "All boxes, all states."
  },
  {
   "property": "C03",
   "status": "partial",
   "theorems": [
    "Pyscal.C03_false",
    "Pyscal.C03_false_rotated_orthogonal",
    "Pyscal.C03_partial"
   ],
   "note": "False for skewed cells and for orthogonal cells not aligned with the axes (witnesses). Proved: the result is a periodic image with fractional coordinates within 1/2, and exact whenever some image is shorter than half of every cell height."
  },
  {
   "property": "C04",
   "status": "partial",
   "theorems": [
    "Pyscal.C04_false_triclinic_sticks",
    "Pyscal.C04_false_getter_stale",
    "Pyscal.C04_false_cancelling_cosines",
    "Pyscal.C04_partial"
   ],
   "note": "Three counterexamples; holds for box histories without padding where no triclinic box precedes an orthogonal one."
  },
  {
   "property": "C05",
   "status": "proved",
   "theorems": [
    "Pyscal.C05_assign_atoms",
    "Pyscal.C05_assign_succeeds",
    "Pyscal.C05_errors"
   ],
   "note": "All lengths, all boxes."
  },
  {
   "property": "C06",
   "status": "proved",
   "theorems": [
    "Pyscal.C06_repeat",
    "Pyscal.C06_repeat_system"
   ],
   "note": "Equality of infinite periodic structures, counts, ids, one copy per cell."
  },
  {
   "property": "C07",
   "status": "partial",
   "theorems": [
    "Pyscal.C07_false",
    "Pyscal.C07_partial"
   ],
   "note": "False when ghosts are added to a system without ghosts; proved for all histories passing real atoms."
  },
  {
   "property": "C08",
   "status": "partial",
   "theorems": [
    "Pyscal.C08_false_repeat",
    "Pyscal.C08_false_dump",
    "Pyscal.C08_partial"
   ],
   "note": "Holds when the location field is the index; false for replicated atoms and for every atom but the last of a system read from a lammps-dump file (locations start at 1)."
  },
  {
   "property": "C09",
   "status": "proved",
   "theorems": [
    "Pyscal.C09_cutoff_exact",
    "Pyscal.C09_overrun",
    "Pyscal.C09_orthogonal",
    "Pyscal.C09_sound"
   ],
   "note": "All systems up to 2300 real atoms, all cutoffs and filters; the overrun of the 300 slot arrays is the only failure. C09_sound: for systems of any size and any box (cell lists included, without conditions) every listed entry is right; completeness with cell lists is C11."
  },
  {
   "property": "C10",
   "status": "proved",
   "theorems": [
    "Pyscal.C10_any",
    "Pyscal.C10_even_any",
    "Pyscal.C10_mutual",
    "Pyscal.C10_even"
   ],
   "note": "All successful searches with a numeric cutoff: any size (cell lists included, without conditions), any box, filter and cutoff; C10_any also counts repetitions."
  },
  {
   "property": "C11",
   "status": "partial",
   "theorems": [
    "Pyscal.C11_cells_eq_brute",
    "Pyscal.C11_partial",
    "Pyscal.C11_succeeds",
    "Pyscal.C11_false_two_cells",
    "Pyscal.C11_false_doubled",
    "Pyscal.C11_false_skew"
   ],
   "note": "Proved for orthogonal boxes with edges of at least three cutoffs and atoms less than one box length outside, including when the search succeeds. With two cells along an axis the search succeeds and lists neighbours twice, so the full statement is false. It is also false in skewed boxes: the cells are filled from Cartesian coordinates, and a search can find no neighbours at all although two atoms are at distance 1 with cutoff 10 (witness built through the API)."
  },
  {
   "property": "C12",
   "status": "partial",
   "theorems": [
    "Pyscal.C12_partial",
    "Pyscal.C12_errors",
    "Pyscal.C12_false_cells"
   ],
   "note": "Proved for up to 4000 atoms without conditions, and above that for boxes suited to the cell lists; every tie order of the sort. For 5000 atoms in a thin box the search succeeds with a neighbour listed twice, so the full statement is false."
  },
  {
   "property": "C13",
   "status": "partial",
   "theorems": [
    "Pyscal.C13_partial",
    "Pyscal.C13_errors",
    "Pyscal.C13_false_cells"
   ],
   "note": "As C12, with the same counterexample. Atoms beyond the search radius are not considered, as the statement says."
  },
  {
   "property": "C14",
   "status": "partial",
   "theorems": [
    "Pyscal.C14_partial",
    "Pyscal.C14_succeeds",
    "Pyscal.C14_false",
    "Pyscal.C14_false_witness"
   ],
   "note": "Any number of atoms, with cell lists in the conditions of C11. The neighbours are exactly determined by the sorted list of atoms (C14_partial, including that the rule stops at the first possible number); the search succeeds when enough atoms are in range (C14_succeeds). Entries are correct, distinct and satisfy the SANN rule except the last, which breaks it; the claim that no nearer atom is left out is false for every atom with more than three neighbours."
  },
  {
   "property": "C15",
   "status": "partial",
   "theorems": [
    "Pyscal.C15_partial",
    "Pyscal.C15_false_number",
    "Pyscal.C15_false_sann",
    "Pyscal.C15_voronoi_first",
    "Pyscal.C15_false_voronoi"
   ],
   "note": "Holds for cutoff and adaptive searches; false for method='number', for SANN and for the Voronoi method (witnesses)."
  },
  {
   "property": "C16",
   "status": "partial",
   "theorems": [
    "Pyscal.C16_partial",
    "Pyscal.C16_voronoi_partial",
    "Pyscal.C16_false_cutoff",
    "Pyscal.C16_false_voronoi"
   ],
   "note": "Neighbour lists and exceptions do not depend on history, for all non-Voronoi methods; neighbour lists of Voronoi searches neither, in orthogonal boxes. Atom cutoffs do (witness), and a default search after a Voronoi search leaves a mark that changes q (witness)."
  },
  {
   "property": "C17",
   "status": "proved",
   "theorems": [
    "Pyscal.C17_range",
    "Pyscal.C17_cutoff"
   ],
   "note": "All configurations and weights, every l in 2..12; NaN and Voronoi cases included. After a cutoff search with distinct positions the conclusion is unconditional."
  },
  {
   "property": "C18",
   "status": "proved",
   "theorems": [
    "Pyscal.C18_rotation"
   ],
   "note": "Every orthogonal matrix, plain and averaged values, NaN included."
  },
  {
   "property": "C19",
   "status": "proved",
   "theorems": [
    "Pyscal.C19_order_scale"
   ],
   "note": "Permutations and positive scalings, plain and averaged values."
  },
  {
   "property": "C20",
   "status": "proved",
   "theorems": [
    "Pyscal.C20_average"
   ],
   "note": "Mean vector, norm, bound by the largest plain value, agreement, NaN propagation."
  },
  {
   "property": "C21",
   "status": "proved",
   "theorems": [
    "Pyscal.C21_values",
    "Pyscal.C21_symmetric",
    "Pyscal.C21_legendre"
   ],
   "note": "s_ij is the normalised scalar product of the q_l vectors (NaN exactly if a vector is zero), symmetric, bounded by 1, and equals a Legendre expression of the bond directions."
  },
  {
   "property": "C22",
   "status": "partial",
   "theorems": [
    "Pyscal.C22_partial",
    "Pyscal.C22_false_threshold",
    "Pyscal.C22_false_minimum",
    "Pyscal.C22_threshold_ignored"
   ],
   "note": "False of the code: bonds below the threshold are counted too and the comparison with bonds is strict. Proved: exactly what is counted and which atoms are solid. The number itself cannot be read through the attribute bonds (C80_false_bonds)."
  },
  {
   "property": "C23",
   "status": "partial",
   "theorems": [
    "Pyscal.C23_false",
    "Pyscal.C23_manual"
   ],
   "note": "False of the code: right=False has no effect on any system; with witness. Setting sys.comparecriteria by hand does not help: then no bond ever counts and no atom is solid (proved)."
  },
  {
   "property": "C24",
   "status": "partial",
   "theorems": [
    "Pyscal.C24_find_solids",
    "Pyscal.C24_calculate_q",
    "Pyscal.C24_get_qvals",
    "Pyscal.C24_disorder",
    "Pyscal.C30_errors",
    "Pyscal.C24_sro",
    "Pyscal.C24_pmsro",
    "Pyscal.C36_succeeds",
    "Pyscal.C24_shells",
    "Pyscal.C24_false_shells"
   ],
   "note": "Proved for all the methods named, with one exception: shells is not checked. With three shells calculate_sro returns without calculating anything, or raises ValueError after assigning the atoms again (general theorem and witness)."
  },
  {
   "property": "C25",
   "status": "partial",
   "theorems": [
    "Pyscal.C25_partial",
    "Pyscal.C25_components",
    "Pyscal.C25_succeeds",
    "Pyscal.C25_run",
    "Pyscal.C25_false_padded"
   ],
   "note": "Clusters are the connected components among chosen atoms (graph search proved correct). False for padded systems of under 200 atoms: links across the periodic boundary are lost."
  },
  {
   "property": "C26",
   "status": "partial",
   "theorems": [
    "Pyscal.C26_partial",
    "Pyscal.C26_false"
   ],
   "note": "Largest cluster is the maximum-size component when a cluster exists. False when there is none: all atoms are flagged."
  },
  {
   "property": "C27",
   "status": "partial",
   "theorems": [
    "Pyscal.C27_partial",
    "Pyscal.C27_false"
   ],
   "note": "Neighbours, cutoffs and signatures are those of the definition (common neighbours, bonds, largest and smallest bond count) on fresh systems; false for the smallest bond count, which is never reported above 8 (witness). Isolated common neighbours are covered by the specification of the code."
  },
  {
   "property": "C28",
   "status": "proved",
   "theorems": [
    "Pyscal.C28_cna",
    "Pyscal.C28_diamond",
    "Pyscal.C28_cna_overrun"
   ],
   "note": "Every successful call: counts are the exact tallies and add up to the number of atoms. With a lattice constant an atom with fewer than 14 candidates makes the call read past the end of its candidate list (proved)."
  },
  {
   "property": "C29",
   "status": "partial",
   "theorems": [
    "Pyscal.C29_partial",
    "Pyscal.C29_false"
   ],
   "note": "Repeatable after reset_neighbors; false otherwise: candidates from the earlier search are kept, and a perfect fcc atom changes to structure 0 on the second call (witness)."
  },
  {
   "property": "C30",
   "status": "proved",
   "theorems": [
    "Pyscal.C30_centrosymmetry",
    "Pyscal.C30_errors"
   ],
   "note": "Value, neighbours, sign, the zero case and rejected arguments, under the exactness condition in the statement. If some atom has too few candidates the call reads out of bounds (proved)."
  },
  {
   "property": "C31",
   "status": "partial",
   "theorems": [
    "Pyscal.C31_chi",
    "Pyscal.C31_succeeds",
    "Pyscal.C31_computed",
    "Pyscal.C31_false_rounding"
   ],
   "note": "C31_chi: every count, the total, and uniqueness of the bin, in exact arithmetic; zero vectors (NaN cosines) are covered. C31_computed: with any computed cosine the total is the number of pairs whose computed cosine lies in [-1, 1]. C31_false_rounding: with rounding to nearest the total is wrong, as opposite neighbours can have a computed cosine below -1 (87 of 91 pairs in bcc with lattice constant 4)."
  },
  {
   "property": "C32",
   "status": "partial",
   "theorems": [
    "Pyscal.C32_partial",
    "Pyscal.C32_false"
   ],
   "note": "False of the code: the density of the first atom is reused for all later ones (witness). Proved for local=False and for the first atom."
  },
  {
   "property": "C33",
   "status": "partial",
   "theorems": [
    "Pyscal.C33_partial",
    "Pyscal.C33_above",
    "Pyscal.C33_false",
    "Pyscal.C33_no_neighbours"
   ],
   "note": "False of the code: the node before the last is dropped. Proved: the exact sum computed, the sign of the error, and the NaN for atoms without neighbours."
  },
  {
   "property": "C34",
   "status": "proved",
   "theorems": [
    "Pyscal.C34_entropy",
    "Pyscal.C34_disorder",
    "Pyscal.C34_switch",
    "Pyscal.C34_switch_nan",
    "Pyscal.C34_volume"
   ],
   "note": "Entropy, disorder and Voronoi volume averages; the switching average is a weighted mean, NaN for a neighbour exactly at ra (proved)."
  },
  {
   "property": "C35",
   "status": "partial",
   "theorems": [
    "Pyscal.C35_partial",
    "Pyscal.C35_false"
   ],
   "note": "Bounds, the uniform case and the averaged value. The formula is false of the code: it uses the atom numbered by the loop counter instead of the neighbour."
  },
  {
   "property": "C36",
   "status": "proved",
   "theorems": [
    "Pyscal.C36_sro",
    "Pyscal.C36_range",
    "Pyscal.C36_average",
    "Pyscal.C36_succeeds"
   ],
   "note": "All two component systems, any neighbour lists in range."
  },
  {
   "property": "C37",
   "status": "partial",
   "theorems": [
    "Pyscal.C37_partial",
    "Pyscal.C37_false"
   ],
   "note": "Holds when the types are 1..k; false otherwise (witnesses: IndexError, wrong fraction)."
  },
  {
   "property": "C38",
   "status": "partial",
   "theorems": [
    "Pyscal.C38_pairs",
    "Pyscal.C38_histogram",
    "Pyscal.C38_values",
    "Pyscal.C38_errors",
    "Pyscal.C38_false_padded"
   ],
   "note": "One distance per pair, every distance in exactly one bin, density values, all errors. For padded systems the distances include the ghost atoms while the normalisation does not (witness: 2 atoms, 31125 distances)."
  },
  {
   "property": "C39",
   "status": "proved",
   "theorems": [
    "Pyscal.C39_remap",
    "Pyscal.C39_kept",
    "Pyscal.C39_idempotent"
   ],
   "note": "All orthogonal boxes, flags, tolerances and positions; nearness is over all periodic images."
  },
  {
   "property": "C40",
   "status": "proved",
   "theorems": [
    "Pyscal.C40_make_crystal",
    "Pyscal.C40_unknown"
   ],
   "note": "All eight structures, a > 0, ca > 0, all repetitions; noise 0. The ideal crystals are given separately by fractional coordinates."
  },
  {
   "property": "C41",
   "status": "proved",
   "theorems": [
    "Pyscal.C41_columns",
    "Pyscal.C41_order",
    "Pyscal.C41_errors",
    "Pyscal.C41_missing",
    "Pyscal.C41_malformed",
    "Pyscal.C41_malformed_head"
   ],
   "note": "All column orders and extra columns, orthogonal and triclinic. Conversions between text and numbers are a parameter with stated laws."
  },
  {
   "property": "C42",
   "status": "partial",
   "theorems": [
    "Pyscal.C42_partial",
    "Pyscal.C42_values_partial",
    "Pyscal.C42_shape",
    "Pyscal.C42_header",
    "Pyscal.C42_false_triclinic",
    "Pyscal.C42_false_space",
    "Pyscal.C42_printed_partial"
   ],
   "note": "Holds for boxes along the axes with custom values that are single words (6 decimals). False for skewed boxes, of which only the edge lengths are written, and for custom values with spaces."
  },
  {
   "property": "C43",
   "status": "proved",
   "theorems": [
    "Pyscal.C43_split",
    "Pyscal.C43_errors",
    "Pyscal.exists_tiling"
   ],
   "note": "All files whose fourth line gives the number of atoms."
  },
  {
   "property": "C44",
   "status": "partial",
   "theorems": [
    "Pyscal.C44_blocks",
    "Pyscal.C44_index_partial",
    "Pyscal.C44_slices",
    "Pyscal.C44_errors",
    "Pyscal.C44_false_tail"
   ],
   "note": "Blocks and slices: all. Negative indices are right only without stray lines; with stray lines index nblocks gives a block made of them and negative indices are shifted (witness)."
  },
  {
   "property": "C45",
   "status": "partial",
   "theorems": [
    "Pyscal.C45_partial",
    "Pyscal.C45_sum_partial",
    "Pyscal.C45_false_operand",
    "Pyscal.C45_false_self",
    "Pyscal.C45_false_sum"
   ],
   "note": "The result lists both operands, but it is the left operand itself, which is changed; a + a never ends, nor does a sum in which the first slice occurs twice."
  },
  {
   "property": "C46",
   "status": "partial",
   "theorems": [
    "Pyscal.C46_partial",
    "Pyscal.C46_load",
    "Pyscal.C46_written",
    "Pyscal.C46_reload",
    "Pyscal.C46_false_to_dict",
    "Pyscal.C46_to_dict_case",
    "Pyscal.C46_false_single",
    "Pyscal.C46_false_no_id",
    "Pyscal.C46_uneven"
   ],
   "note": "Histories of load, unload, edit, to_file and to_system on existing blocks: proved. False for to_dict, which forgets edits. Loading fails for trajectories of one atom, writing for loaded blocks without id and type columns."
  },
  {
   "property": "C47",
   "status": "partial",
   "theorems": [
    "Pyscal.C47_partial",
    "Pyscal.C47_system_partial",
    "Pyscal.C47_system_random",
    "Pyscal.C47_system_slice",
    "Pyscal.C47_other",
    "Pyscal.C47_false_descending",
    "Pyscal.C47_false_ascending",
    "Pyscal.C47_false_system"
   ],
   "note": "Ascending with n at most nblocks and random are right, for indices and for systems (up to the first frame that cannot be read); descending starts one past the last block and never reaches block 0, and with systems raises IndexError at once."
  },
  {
   "property": "C48",
   "status": "partial",
   "theorems": [
    "Pyscal.C48_partial",
    "Pyscal.C48_read",
    "Pyscal.C48_types",
    "Pyscal.C48_succeeds",
    "Pyscal.C48_false_reused"
   ],
   "note": "Into a new system: proved, with the exact conditions for success. False when the system held fewer than 200 atoms before: the old cell is kept (witness)."
  },
  {
   "property": "C49",
   "status": "proved",
   "theorems": [
    "Pyscal.C49_poscar",
    "Pyscal.grouped_types"
   ],
   "note": "All systems satisfying the store invariant; printing is a parameter with stated precision."
  },
  {
   "property": "C50",
   "status": "proved",
   "theorems": [
    "Pyscal.C50_lookup",
    "Pyscal.lookup_model",
    "Pyscal.lookup_eq"
   ],
   "note": "All atoms, key lists and attribute tables; attributes are a parameter."
  },
  {
   "property": "C51",
   "status": "partial",
   "theorems": [
    "Pyscal.C51_false_read",
    "Pyscal.C51_false_write",
    "Pyscal.C51_case",
    "Pyscal.C51_read_partial",
    "Pyscal.C51_write_partial"
   ],
   "note": "Only the built-in format names work. Every other format raises TypeError, on writing after the file has been written, because warnings.info does not exist."
  },
  {
   "property": "C52",
   "status": "partial",
   "theorems": [
    "Pyscal.C52_set_get",
    "Pyscal.C52_set_get_list",
    "Pyscal.C52_list_errors",
    "Pyscal.C52_false_partial_write"
   ],
   "note": "Round trips hold; a list call that raises leaves the atom modified (witness)."
  },
  {
   "property": "C53",
   "status": "proved",
   "theorems": [
    "Pyscal.C53_frame",
    "Pyscal.C53_local",
    "Pyscal.C53_get_qvals",
    "Pyscal.C53_get_qvals_list"
   ],
   "note": "Calls without condition arguments."
  },
  {
   "property": "C54",
   "status": "proved",
   "theorems": [
    "Pyscal.C54_weights",
    "Pyscal.C54_entries",
    "Pyscal.findVoronoi_succeeds",
    "Pyscal.isContainer_ortho"
   ],
   "note": "For every tessellation (Voro++ is a parameter): neighbours and weights are those of the faces, non-negative with sum 1; entries and frame in orthogonal boxes."
  },
  {
   "property": "C55",
   "status": "proved",
   "theorems": [
    "Pyscal.C55_vorovector",
    "Pyscal.C55_succeeds"
   ],
   "note": "For every tessellation whose faces refer to vertices of their cell. The uninitialised origin passed to Voro++ is taken as zero (lengths do not depend on it)."
  },
  {
   "property": "C56",
   "status": "proved",
   "theorems": [
    "Pyscal.C56_cutoff"
   ],
   "note": "All neighbour lists and factors; atoms without neighbours get NaN."
  },
  {
   "property": "C57",
   "status": "partial",
   "theorems": [
    "Pyscal.C57_partial",
    "Pyscal.C57_false",
    "Pyscal.C57_cluster",
    "Pyscal.C57_false_cluster"
   ],
   "note": "Holds for at least 200 atoms (calculate_chiparams, calculate_angularcriteria, calculate_vorovector; later calculate_q unchanged). False for clustering at any size: the condition stays on the atoms and calculate_q then skips neighbours with another condition (general theorem and witness with 200 atoms). False for padded systems: writing atoms back replaces the ghosts by copies without neighbours, and averaged q becomes NaN (witness)."
  },
  {
   "property": "C58",
   "status": "proved",
   "theorems": [
    "Pyscal.C58_extract",
    "Pyscal.C58_errors"
   ],
   "note": "Any box; also which atoms are returned."
  },
  {
   "property": "C59",
   "status": "partial",
   "theorems": [
    "Pyscal.C59_partial",
    "Pyscal.C59_errors",
    "Pyscal.C59_false_padded"
   ],
   "note": "Value, sign and zero case when all neighbours are real atoms. In padded systems a ghost neighbour makes the call raise IndexError (proved, with witness)."
  },
  {
   "property": "C60",
   "status": "partial",
   "theorems": [
    "Pyscal.C60_partial",
    "Pyscal.C60_not_found",
    "Pyscal.C60_false",
    "Pyscal.C60_false_padded"
   ],
   "note": "Holds for at least 200 atoms with neighbours found before. False without neighbours: the averages are the own energies and the neighbours just found are overwritten (general theorem and witness); false for padded systems: IndexError (witness)."
  },
  {
   "property": "C61",
   "status": "proved",
   "theorems": [
    "Pyscal.C61_legendre"
   ],
   "note": "Every l in 2..12, all weights."
  },
  {
   "property": "C62",
   "status": "partial",
   "theorems": [
    "Pyscal.C62_partial",
    "Pyscal.C62_false",
    "Pyscal.C62_false_witness"
   ],
   "note": "False of the code: components for negative m are not conjugated; the relation that does hold is proved."
  },
  {
   "property": "C63",
   "status": "proved",
   "theorems": [
    "Pyscal.C63_structure"
   ],
   "note": "Fresh systems where every atom has at least 14 others in the search radius and the candidate search is exact, as the statement says."
  },
  {
   "property": "C64",
   "status": "proved",
   "theorems": [
    "Pyscal.C64_diamond"
   ],
   "note": "All systems where the candidate search is exact (always up to 4000 atoms)."
  },
  {
   "property": "C65",
   "status": "partial",
   "theorems": [
    "Pyscal.C65_partial",
    "Pyscal.C65_false"
   ],
   "note": "Holds for the first search on an atom; a repeated search appends the vertices again (witness)."
  },
  {
   "property": "C66",
   "status": "partial",
   "theorems": [
    "Pyscal.C66_partial",
    "Pyscal.C66_false"
   ],
   "note": "Holds without ghosts; false for padded systems (witness): assignment drops the ghosts, and without assignment the box used for distances changes."
  },
  {
   "property": "C67",
   "status": "partial",
   "theorems": [
    "Pyscal.C67_partial",
    "Pyscal.C67_false"
   ],
   "note": "One-atom systems: edges are lattice vectors up to the code's tolerance. False otherwise (witness with two atoms)."
  },
  {
   "property": "C68",
   "status": "partial",
   "theorems": [
    "Pyscal.C68_partial",
    "Pyscal.C68_false"
   ],
   "note": "Atoms, counts and the reported box stay; distances change (witness)."
  },
  {
   "property": "C69",
   "status": "proved",
   "theorems": [
    "Pyscal.C69_concentration"
   ],
   "note": "All systems satisfying the store invariant."
  },
  {
   "property": "C70",
   "status": "proved",
   "theorems": [
    "Pyscal.C70_scaled"
   ],
   "note": "All cells with positive edges."
  },
  {
   "property": "C71",
   "status": "proved",
   "theorems": [
    "Pyscal.C71_cell",
    "Pyscal.boundsOf_exists"
   ],
   "note": "All cells with positive edges; translation relative to the corner of the bounding box."
  },
  {
   "property": "C72",
   "status": "proved",
   "theorems": [
    "Pyscal.C72_split_blocks"
   ],
   "note": "All files whose fourth line gives the number of atoms."
  },
  {
   "property": "C73",
   "status": "partial",
   "theorems": [
    "Pyscal.C73_partial",
    "Pyscal.C73_errors",
    "Pyscal.C73_false_sticky",
    "Pyscal.C73_sticky_case",
    "Pyscal.C73_false_gap",
    "Pyscal.C73_false_zero"
   ],
   "note": "Holds for types 1 to k on the first call. False afterwards (species of the first call are kept), for types with gaps (IndexError) and for type 0 (last species)."
  },
  {
   "property": "C74",
   "status": "proved",
   "theorems": [
    "Pyscal.C74_translation",
    "Pyscal.analyse_move"
   ],
   "note": "Whole analysis from System() to the atoms, all search methods, including errors; sizes for which no cell lists are used."
  },
  {
   "property": "C75",
   "status": "partial",
   "theorems": [
    "Pyscal.C75_rotation_partial",
    "Pyscal.C75_false_orthogonal",
    "Pyscal.C75_false_sum",
    "Pyscal.C75_false_mirror"
   ],
   "note": "Rotations of skewed cells: proved. False for orthogonal boxes (a rotated box is treated as axis-aligned), for small inputs whose rotated box entries sum to zero (ValueError), and for mirror images with the searches that guess a distance (RuntimeError for every left-handed skewed cell)."
  },
  {
   "property": "C76",
   "status": "proved",
   "theorems": [
    "Pyscal.C76_scaling",
    "Pyscal.sortScales_insertion"
   ],
   "note": "All positive factors and methods, including errors; the sort must use the distances only through comparisons (SortScales), shown for insertion sort."
  },
  {
   "property": "C77",
   "status": "proved",
   "theorems": [
    "Pyscal.C77_relabelling",
    "Pyscal.C77_exact",
    "Pyscal.C77_number",
    "Pyscal.C77_sann"
   ],
   "note": "All permutations, padded or not, including errors. C77_relabelling: numeric cutoffs up to 2300 atoms. C77_exact: numeric cutoffs and the adaptive search for any number of atoms, with cell lists in the conditions of C11. C77_number: the search by number gives the same distances and the same neighbours except for ties at the largest distance. C77_sann: two successful SANN searches give the same distances, the same cutoff and the same neighbours up to ties."
  },
  {
   "property": "C78",
   "status": "partial",
   "theorems": [
    "Pyscal.C78_wrapping_partial",
    "Pyscal.C78_small",
    "Pyscal.C78_exact",
    "Pyscal.C78_number",
    "Pyscal.C78_sann",
    "Pyscal.compact_of_inside"
   ],
   "note": "At least 200 atoms: orthogonal and skewed cells, all methods that compare all pairs (C78_wrapping_partial). Any number of atoms, padded or not (C78_small, C78_exact): numeric cutoffs and the adaptive search, with cell lists in the conditions of C11; neighbours are compared up to which periodic copy is meant. SANN and number searches give the same distances and, up to ties, the same neighbours (C78_number, C78_sann). Missing: which of equally distant atoms these list, and that they fail alike (below 200 atoms or with cell lists)."
  },
  {
   "property": "C79",
   "status": "partial",
   "theorems": [
    "Pyscal.C79_partial",
    "Pyscal.C79_false",
    "Pyscal.C79_false_padded"
   ],
   "note": "Holds for solid atoms with neighbours among sys.atoms. False for atoms that are not solid (always flagged, witness) and for periodic copies as neighbours in padded systems (skipped, witness)."
  },
  {
   "property": "C80",
   "status": "partial",
   "theorems": [
    "Pyscal.C80_partial",
    "Pyscal.C80_frame",
    "Pyscal.C80_roundtrip",
    "Pyscal.C80_new",
    "Pyscal.C80_q",
    "Pyscal.C80_q_errors",
    "Pyscal.C80_allq",
    "Pyscal.C80_qlm",
    "Pyscal.C80_capacity",
    "Pyscal.C80_names",
    "Pyscal.C80_false_ignored",
    "Pyscal.C80_false_size",
    "Pyscal.C80_false_bonds"
   ],
   "note": "All histories of successful assignments for attributes not given per neighbour. False for neighbor_distance, neighbor_vector, local_angles and sij (assignment silently ignored), for lists of another size, and for bonds (bound twice, so the number of solid bonds is unreadable)."
  },
  {
   "property": "C81",
   "status": "partial",
   "theorems": [
    "Pyscal.C81_partial",
    "Pyscal.C81_weights",
    "Pyscal.C81_sij",
    "Pyscal.C81_false_sij",
    "Pyscal.C81_false_assigned"
   ],
   "note": "After every search, whatever was held before, with the exact limit of 300. False for sij, which keeps the values of the previous neighbours after a new search (for every atom). False after assigning neighbors: vectors are those of the old neighbours (for every atom)."
  },
  {
   "property": "C82",
   "status": "partial",
   "theorems": [
    "Pyscal.C82_partial",
    "Pyscal.C82_run",
    "Pyscal.C82_false_pairing",
    "Pyscal.C82_false_error"
   ],
   "note": "Volumes, numbers and the set of fingerprints: proved, end to end for orthogonal boxes. False: fingerprint i need not belong to volume i, and ValueError is raised if there are not as many fingerprints as volumes (witnesses)."
  },
  {
   "property": "C83",
   "status": "partial",
   "theorems": [
    "Pyscal.C83_partial",
    "Pyscal.C83_run",
    "Pyscal.C83_direct",
    "Pyscal.C83_false_direct",
    "Pyscal.C83_false_skew"
   ],
   "note": "Exact characterisation with direct_coordinates=False (end to end for orthogonal boxes), including IndexError for neighbours that are periodic copies. With the default True: ZeroDivisionError for every orthogonal box as soon as there is something to report, and wrong coordinates for skewed boxes."
  },
  {
   "property": "C84",
   "status": "proved",
   "theorems": [
    "Pyscal.C84_any",
    "Pyscal.C84_next"
   ],
   "note": "All systems of any size (cell lists included), all cutoffs and filters."
  },
  {
   "property": "C85",
   "status": "proved",
   "theorems": [
    "Pyscal.C85_history"
   ],
   "note": "Induction over histories of nineteen kinds of calls, padded or not, orthogonal and skewed boxes. Calls modelled with Except are included when they return, the others also when they raise. Starts from a new System with one box and one list of atoms."
  },
  {
   "property": "C86",
   "status": "partial",
   "theorems": [
    "Pyscal.C86_partial",
    "Pyscal.C86_false_voronoi",
    "Pyscal.shear_chain"
   ],
   "note": "Holds for boxes with orthogonal vectors and for fewer than 200 atoms, all histories and methods. False for a skewed box with at least 200 atoms after a Voronoi search: the 26 periodic copies stay in the system while the box is reset, so a cutoff search gives every atom its 26 copies as neighbours at distance 0 (proved for every tessellation and every such input, with a concrete instance)."
  },
  {
   "property": "C87",
   "status": "partial",
   "theorems": [
    "Pyscal.C87_partial",
    "Pyscal.C87_cleared",
    "Pyscal.C87_false",
    "Pyscal.C87_mixed",
    "Pyscal.C87_false_mixed"
   ],
   "note": "Proved: everything but the neighbour data and search settings is kept, and a later search has the same outcome as without the failed call. False for the neighbours: a rejected threshold clears all neighbours while they still count as found, so calculate_q runs and gives NaN; a search by number that gives up leaves the first atoms with new neighbours and the others with none (exact characterisation and witness set up through the API). Voronoi searches are not covered."
  },
  {
   "property": "C88",
   "status": "partial",
   "theorems": [
    "Pyscal.findSolids_cluster",
    "Pyscal.C88_partial",
    "Pyscal.C88_run"
   ],
   "note": "Proved for every successful cutoff search (at most 2300 atoms, or cell lists in the conditions of C11) followed by find_solids with clustering: same solid atoms and bond numbers as without clustering, ids are the connected components of the solid atoms, the value returned is the size of the largest one. C88_run: the call succeeds for all arguments in range. Missing: chains through periodic copies in padded systems (C25_false_padded) and the flags when no atom is solid (C26_false)."
  },
  {
   "property": "C89",
   "status": "partial",
   "theorems": [
    "Pyscal.C89_header",
    "Pyscal.C89_row",
    "Pyscal.C89_cut",
    "Pyscal.C89_false"
   ],
   "note": "Proved: a file that ends within its nine header lines raises, and so does a row that lacks a needed column. False otherwise: every readable dump, cut after any complete row, is read without error as a smaller system, because the number of atoms in the header is not compared with the number of rows."
  },
  {
   "property": "C90",
   "status": "proved",
   "theorems": [
    "Pyscal.C90_q",
    "Pyscal.C90_averaged",
    "Pyscal.C90_solids",
    "Pyscal.C90_api",
    "Pyscal.analyse_runs",
    "Pyscal.C90_large_q",
    "Pyscal.C90_large_solids"
   ],
   "note": "Proved for all systems of at most 2300 atoms (padded or not, any box), all cutoffs and filters; C90_api states it through the calls of the API for 200 to 2300 atoms. C90_large_q and C90_large_solids allow cell lists in the conditions of C11, where the order of the neighbours may change; outside these conditions the lists themselves are wrong (C11)."
  },
  {
   "property": "C91",
   "status": "partial",
   "theorems": [
    "Pyscal.C91_cutoff",
    "Pyscal.C91_large",
    "Pyscal.C91_number",
    "Pyscal.C91_adaptive",
    "Pyscal.C91_clusters",
    "Pyscal.C91_false_cells"
   ],
   "note": "Cutoff searches: all systems of at most 2300 atoms, and larger ones under the conditions of C11 up to the order of the lists (C91_large). Searches by number and adaptive searches: also with cell lists under the conditions of C11. Clusters: all systems with an exact search (at most 2300 atoms, or the conditions of C11), padded or not. False outside these conditions: with two cells along an axis the larger cutoff lists a neighbour twice, the smaller one once (witness, both searches succeed)."
  },
  {
   "property": "C92",
   "status": "partial",
   "theorems": [
    "Pyscal.C92_q",
    "Pyscal.C92_solids",
    "Pyscal.C92_api",
    "Pyscal.C92_number",
    "Pyscal.C92_adaptive",
    "Pyscal.C92_sann",
    "Pyscal.C92_entropy",
    "Pyscal.C92_chi",
    "Pyscal.C92_range_needed",
    "Pyscal.C92_neighbours"
   ],
   "note": "Proved for orthogonal and skewed boxes, padded or not, any number of atoms (cell lists in the conditions of C11), positions at most one and a half cells apart, no atom listed twice, cutoffs up to half the heights of the stored box. Beyond that cutoff it is false (C92_range_needed): an atom's own periodic copy is never a neighbour. The search by number gives the same distances and the same neighbours except for ties at the largest distance (C92_number), the adaptive search the same cutoff and neighbours (C92_adaptive), as long as the atoms that count are within that range; SANN searches that succeed give the same distances, cutoff and, up to ties, neighbours (C92_sann)."
  },
  {
   "property": "C93",
   "status": "partial",
   "theorems": [
    "Pyscal.C93_partial",
    "Pyscal.C93_cell_partial",
    "Pyscal.C93_false_types",
    "Pyscal.C93_false_cell",
    "Pyscal.C93_default",
    "Pyscal.C93_case"
   ],
   "note": "Proved for orthogonal and skewed boxes, plain or scaled coordinates, when every selected frame has atoms of all types 1..number of species. False otherwise: a single selected frame in which one species has no atom (or with another number of types) makes the whole call raise ValueError, whatever the other frames. Without species the call always raises ValueError."
  },
  {
   "property": "C94",
   "status": "partial",
   "theorems": [
    "Pyscal.C94_shape",
    "Pyscal.C94_turned",
    "Pyscal.C94_partial",
    "Pyscal.C94_voronoi",
    "Pyscal.C94_false",
    "Pyscal.C94_false_voronoi"
   ],
   "note": "Proved for cells with the first vector along x and the second in the xy plane. For every other orientation the box is the one around the turned cell (C94_turned), while the atoms are not turned: false there, with a cell that extends over 1300 along z and gets a box of 100, and a Voronoi search that is given two atoms 300 apart as the same point of its container."
  },
  {
   "property": "C95",
   "status": "proved",
   "theorems": [
    "Pyscal.C95_coordination",
    "Pyscal.C95_q",
    "Pyscal.fits_reps"
   ],
   "note": "For cutoffs that fit into the box (Spec.RangeFits): at most half of every stored edge, a third with more than 2300 atoms. This always holds below 200 atoms and with five repetitions in every direction (fits_reps). The values of a15 are not stated for calculate_q; hcp is not cubic and not covered."
  },
  {
   "property": "C96",
   "status": "proved",
   "theorems": [
    "Pyscal.C96_fcc",
    "Pyscal.C96_fcc_small",
    "Pyscal.C96_bcc",
    "Pyscal.C96_hcp",
    "Pyscal.C96_diamond"
   ],
   "note": "For boxes that fit (Spec.HalfFits: twice the distance between two neighbours of one atom that the analysis has to tell apart is at most the stored edge). fcc: always below 200 atoms (C96_fcc_small), three repetitions above. Diamond above 4000 atoms (cell lists): lattice constant at least 1e-6 and five repetitions in every direction. The call is shown to succeed, and both the labels and the returned counts are stated."
  },
  {
   "property": "C97",
   "status": "proved",
   "theorems": [
    "Pyscal.C97_zero",
    "Pyscal.C97_diamond",
    "Pyscal.C97_hcp"
   ],
   "note": "For boxes that fit (Spec.HalfFits with radius 3/2; for hcp a radius with square at least 1.39 + (c/a)^2/4): always below 200 atoms except for very elongated cells, three repetitions above. The calls are shown to succeed and the values are exact, for every valid sort."
  },
  {
   "property": "C98",
   "status": "proved",
   "theorems": [
    "Pyscal.C98_noise",
    "Pyscal.C98_cna_fcc",
    "Pyscal.C98_cna_bcc",
    "Pyscal.C98_coordination",
    "Pyscal.C98_cutoff",
    "Pyscal.C98_centrosymmetry"
   ],
   "note": "The bounds on d are sufficient, not the largest possible ones. Box conditions as in C95 and C96. Above 2300 atoms C98_coordination assumes that no coordinate is less than 1e-6 below zero, where the cell lists misplace atoms (C11); C98_cutoff takes the condition on cell lists as a hypothesis. hcp and diamond with noise are not covered."
  },
  {
   "property": "C99",
   "status": "proved",
   "theorems": [
    "Pyscal.C99_solid",
    "Pyscal.C99_cluster",
    "Pyscal.C99_disorder"
   ],
   "note": "For cutoffs that fit into the box (Spec.RangeFits, as in C95). Disorder without diamond, whose two kinds of sites have mirrored surroundings. All calls are shown to succeed."
  },
  {
   "property": "C100",
   "status": "proved",
   "theorems": [
    "Pyscal.C100_q",
    "Pyscal.C100_continuous",
    "Pyscal.C100_crystal",
    "Pyscal.C100_solid",
    "Pyscal.C100_cluster"
   ],
   "note": "Orthogonal boxes, searches with a cutoff of at most half of each edge of the stored box. Beyond 2300 atoms the conditions of the cell lists (Spec.PairsExact) are assumed of both systems; the crystal versions assume there only that no coordinate is less than 1e-6 below zero, where the cell lists misplace atoms, and show that the calls succeed. The averaged values of diamond are left out because C95 does not give them."
  },
  {
   "property": "C101",
   "status": "partial",
   "theorems": [
    "Pyscal.C101_partial",
    "Pyscal.C101_false"
   ],
   "note": "Proved for position, id, type and 33 attributes. False for the twelve numbers condition, mask, cutoff, avg_sij, disorder, avg_disorder, structure, volume, avg_volume, angular, avg_angular and centrosymmetry, and for vorovector: the constructor does not set them and every value is possible. startValues_complete: no attribute is left out."
  },
  {
   "property": "C102",
   "status": "proved",
   "theorems": [
    "Pyscal.C102_chi"
   ],
   "note": "In exact arithmetic. With rounding, opposite neighbours may be missing from the first entry, see C31_false_rounding."
  },
  {
   "property": "C103",
   "status": "proved",
   "theorems": [
    "Pyscal.C103_symmetry",
    "Pyscal.C103_accuracy",
    "Pyscal.C103_exact",
    "Pyscal.C103_neighbors",
    "Pyscal.C103_same",
    "Pyscal.C103_crystal"
   ],
   "note": "Without overflow and underflow, every operation rounded to nearest in the order written in the code (no fused operations). Searches: direct loop only."
  },
  {
   "property": "C104",
   "status": "partial",
   "theorems": [
    "Pyscal.C104_partial",
    "Pyscal.C104_false_small"
   ],
   "note": "Proved for at least 200 atoms, in exact arithmetic. With fewer the call raises IndexError for every crystal, because an atom at the border has a periodic copy as neighbour."
  },
  {
   "property": "C105",
   "status": "proved",
   "theorems": [
    "Pyscal.C105_sro",
    "Pyscal.C105_pmsro"
   ],
   "note": "In exact arithmetic."
  },
  {
   "property": "C106",
   "status": "proved",
   "theorems": [
    "Pyscal.C106_sites",
    "Pyscal.C106_entropy"
   ],
   "note": "In exact arithmetic."
  },
  {
   "property": "C107",
   "status": "proved",
   "theorems": [
    "Pyscal.C107_binary",
    "Pyscal.C107_system"
   ],
   "note": "In exact arithmetic. C107_binary is for any state in which the stored atoms have the composition of the real ones."
  },
  {
   "property": "C108",
   "status": "partial",
   "theorems": [
    "Pyscal.C108_partial",
    "Pyscal.C108_cosines",
    "Pyscal.C108_plain",
    "Pyscal.C108_false_shared",
    "Pyscal.C108_false"
   ],
   "note": "Proved: the cosines, and independence of systems for every history in which each system is given new atoms or its own. False when two systems are given the same atoms (sys2.atoms = sys1.atoms): copies of an atom share the custom dictionary, so calculate_chiparams(angles=True) on one system replaces the cosines shown by the other (for every two such systems, and in particular for all 200 or more atoms, boxes and searches)."
  },
  {
   "property": "C109",
   "status": "proved",
   "theorems": [
    "Pyscal.C109_labels"
   ],
   "note": "All non-Voronoi searches, padded systems and cell lists included; in exact arithmetic. Which results do depend on the numbers of the types: C37, C73."
  },
  {
   "property": "C110",
   "status": "partial",
   "theorems": [
    "Pyscal.C110_partial",
    "Pyscal.C110_refused",
    "Pyscal.C110_cleared",
    "Pyscal.C110_false_small"
   ],
   "note": "Proved for at least 200 atoms, in exact arithmetic. False for fewer: an atom whose neighbours are all periodic copies gets NaN as averaged value, whatever the condition. With clear_condition=True the condition of the same call has no effect (C110_cleared)."
  },
  {
   "property": "C111",
   "status": "proved",
   "theorems": [
    "Pyscal.C111_layout"
   ],
   "note": "The Unicode spaces from 0x1680 on are not covered: fields and separators have smaller numbers."
  },
  {
   "property": "C112",
   "status": "partial",
   "theorems": [
    "Pyscal.C112_partial",
    "Pyscal.C112_clusters",
    "Pyscal.C112_false_threshold"
   ],
   "note": "Proved for the number or share of bonds and for avgthreshold, for single atoms and for clusters after a cutoff search; false for threshold (C112_false_threshold). comparecriteria set by hand is not covered."
  },
  {
   "property": "C113",
   "status": "partial",
   "theorems": [
    "Pyscal.C113_partial",
    "Pyscal.C113_cleared",
    "Pyscal.C113_shrinks",
    "Pyscal.C113_false"
   ],
   "note": "Proved for histories of find_solids(cluster=False), calculate_disorder and calculate_q without a condition; for at least 200 atoms also after clustering with any condition, if the condition is then cleared with calculate_q(clear_condition=True) (C113_cleared). False with the default cluster=True, which leaves the condition on the atoms: C113_shrinks says which atoms stop being solid in every system, C113_false is a row of atoms in which the second atom does."
  },
  {
   "property": "C114",
   "status": "proved",
   "theorems": [
    "Pyscal.C114_labels"
   ],
   "note": "All non-Voronoi searches, padded systems and cell lists included; in exact arithmetic."
  },
  {
   "property": "C115",
   "status": "proved",
   "theorems": [
    "Pyscal.C115_nested"
   ],
   "note": "Cutoff searches: at most 2300 atoms, or cell lists in the conditions of C11. In exact arithmetic."
  },
  {
   "property": "C116",
   "status": "partial",
   "theorems": [
    "Pyscal.C116_partial",
    "Pyscal.C116_leftover",
    "Pyscal.C116_false"
   ],
   "note": "Proved for at least 200 atoms and a cutoff given in the call. False for the default cutoff: after a call with cutoff=c, calls without cutoff use c (C116_leftover, every system; C116_false, a row of atoms). Fewer than 200 atoms are not covered."
  },
  {
   "property": "C117",
   "status": "partial",
   "theorems": [
    "Pyscal.C117_partial",
    "Pyscal.C117_any_size",
    "Pyscal.C117_averages",
    "Pyscal.C117_leftover",
    "Pyscal.C117_false"
   ],
   "note": "With local=False: the entropy for systems of any size, its averages for at least 200 atoms. False with local=True: the density is taken from the cutoff of an earlier clustering (C117_leftover, every system; C117_false, a row of atoms). Averages of fewer than 200 atoms are not covered."
  },
  {
   "property": "C118",
   "status": "partial",
   "theorems": [
    "Pyscal.C118_partial",
    "Pyscal.C118_chi",
    "Pyscal.C118_angular"
   ],
   "note": "C118_chi, C118_angular: the same values for systems of any size, when both calls succeed; C118_angular for histories that begin with setting the box and assigning the atoms. C118_partial: at least 200 atoms and neighbour lists in range, both calls do succeed. That success before implies success after is not proved for fewer than 200 atoms."
  }
 ]
}