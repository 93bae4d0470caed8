{"id": "C01", "title": "Orthogonal boxes: get_distance is the minimum-image distance", "statement": "For an orthogonal box and two atoms whose coordinates differ by at most 3/2 of the box length along each axis (in particular any two atoms inside the box), get_distance(a, b) equals the smallest length of b - a + (integer combination of the box vectors), and the vector returned with vector=True attains it.", "quantifier": "every orthogonal box with positive edge lengths, every pair of positions in range, every integer lattice translation", "why_tests_cant": "there are infinitely many positions and translations; a test compares a handful of pairs with hand computed distances", "anchors": ["src/pyscal/system.cpp: get_abs_distance, get_distance_vector", "src/pyscal/core.py: System.get_distance"]}
{"id": "C02", "title": "Distances are symmetric, vectors antisymmetric, and they agree with each other", "statement": "For every box (orthogonal or triclinic) and every pair of atoms, get_distance(a,b) = get_distance(b,a), the displacement vector of (b,a) is the negative of that of (a,b), the distance is the Euclidean norm of the displacement vector, it is non-negative, and get_distance(a,a) = 0.", "quantifier": "every system state, every pair of atoms, inside or outside the box", "why_tests_cant": "must hold for all pairs including those exactly on half-box ties and outside the box", "anchors": ["src/pyscal/system.cpp: get_abs_distance (3 copies)", "src/pyscal/core.py: System.get_distance"]}
{"id": "C03", "title": "Triclinic boxes: get_distance is the length of the shortest periodic image", "statement": "For every non-degenerate triclinic box and any two atoms inside it, get_distance(a,b) is the minimum of |b - a + n1*v1 + n2*v2 + n3*v3| over all integers n1,n2,n3.", "quantifier": "every invertible 3x3 box and every pair of positions", "why_tests_cant": "skewness of the cell is a continuous parameter; only some cells expose the problem", "anchors": ["src/pyscal/system.cpp: get_abs_distance triclinic branch"]}
{"id": "C04", "title": "The box of a System is the box last assigned to it", "statement": "After any sequence of assignments to sys.box and sys.atoms, reading sys.box gives the box most recently assigned, and get_distance depends only on that box and the two positions, not on boxes assigned earlier.", "quantifier": "every history of box/atoms assignments, every box", "why_tests_cant": "depends on the order and history of assignments (orthogonal after triclinic, after ghost creation, ...)", "anchors": ["src/pyscal/core.py: System.box, System.atoms, System.repeat", "src/pyscal/system.cpp: sbox, gbox, assign_triclinic_params"]}
{"id": "C05", "title": "Assigning atoms keeps exactly the given real atoms and pads small systems to at least 200", "statement": "Assigning a list of n real atoms (n>=1, box set) to sys.atoms makes sys.atoms return exactly that list in that order and natoms = n; if n < 200 the system internally holds at least 200 atoms, all extra ones being ghosts; if n >= 200 nothing is added. With an unset box and n < 200 a ValueError is raised, and an empty list raises ZeroDivisionError.", "quantifier": "every list of atoms of every length, every box", "why_tests_cant": "every length 1..199 takes a different replication count; positions are arbitrary", "anchors": ["src/pyscal/core.py: System.atoms setter, System.repeat", "src/pyscal/system.cpp: set_atoms, get_atoms"]}
{"id": "C06", "title": "Replication describes the same infinite crystal", "statement": "repeat((rx,ry,rz)) returns the original atoms followed by one translated copy of each atom for every non-zero cell in [-rx,rx]x[-ry,ry]x[-rz,rz]; the number of atoms is n(2rx+1)(2ry+1)(2rz+1), new ids are consecutive and start at n+1, types are kept, and the infinite periodic set of (position,type) generated by the replicated atoms and the scaled box equals the one generated by the original atoms and box.", "quantifier": "all atom lists, boxes and repetition counts", "why_tests_cant": "set equality of infinite periodic structures for all repetition counts", "anchors": ["src/pyscal/core.py: System.repeat"]}
{"id": "C07", "title": "natoms and sys.atoms reflect every add/set history", "statement": "After any sequence of set_atoms/add_atoms calls starting from an empty System, sys.atoms is the list of real atoms in insertion order since the last assignment, natoms is its length, ntotal is the number of atoms held, and real atoms precede ghosts.", "quantifier": "all finite sequences of operations with arbitrary atom lists (real and ghost)", "why_tests_cant": "invariant over unbounded histories", "anchors": ["src/pyscal/system.cpp: set_atoms, add_atoms, get_atoms, get_all_atoms", "src/pyscal/core.py: System.add_atoms"]}
{"id": "C08", "title": "get_atom followed by set_atom edits exactly one atom", "statement": "For every index i of the atom list, setting back an atom obtained with get_atom(i) after editing it changes entry i to the edited atom and leaves every other entry alone, whatever reader or builder produced the atoms.", "quantifier": "all systems built by make_crystal, the lammps-dump reader, the ase reader or repeat; all indices", "why_tests_cant": "depends on a hidden location field being right for every index and every reader", "anchors": ["src/pyscal/system.cpp: gatom, satom", "src/pyscal/formats/lammps.py: read_snap (atom.loc)", "src/pyscal/crystal_structures.py: make_crystal", "src/pyscal/formats/ase.py: read_snap", "src/pyscal/core.py: System.repeat"]}
{"id": "C09", "title": "Cutoff neighbours are exactly the atoms closer than the cutoff", "statement": "After find_neighbors(method='cutoff', cutoff=r) (up to 2300 atoms), the neighbour list of atom i contains exactly the indices j != i with get_distance(i,j) < r, each once, with neighbor_distance equal to get_distance, neighbor_vector equal to the minimum-image displacement from host to neighbour, unit weights, and coordination equal to the number of such j. More than 300 neighbours overrun the fixed arrays.", "quantifier": "all systems, all cutoffs, all atoms", "why_tests_cant": "soundness and completeness for every configuration", "anchors": ["src/pyscal/system.cpp: get_all_neighbors_normal", "src/pyscal/core.py: System.find_neighbors"]}
{"id": "C10", "title": "Cutoff neighbour lists are mutual", "statement": "After find_neighbors with a numeric cutoff, j is a neighbour of i iff i is a neighbour of j, with equal distances and opposite vectors; the total number of list entries is even.", "quantifier": "all systems, cutoffs, filters and pairs", "why_tests_cant": "relation over all pairs", "anchors": ["src/pyscal/system.cpp: get_all_neighbors_normal, get_all_neighbors_cells"]}
{"id": "C11", "title": "Cell lists give the same neighbours as brute force", "statement": "For every system and cutoff, the neighbour lists found with cell lists (more than 2300 atoms) equal, as multisets, those found by the brute-force double loop.", "quantifier": "all boxes (orthogonal and skewed), cutoffs and atom positions", "why_tests_cant": "edge cases at cell borders, few cells per axis, atoms slightly outside the box", "anchors": ["src/pyscal/system.cpp: set_up_cells, cell_periodic, cell_index, get_all_neighbors_cells, get_temp_neighbors_cells", "src/pyscal/core.py: System.find_neighbors"]}
{"id": "C12", "title": "method='number' gives the nmax closest atoms or an error", "statement": "find_neighbors(method='number', nmax=k) either raises RuntimeError (some atom has fewer than k atoms within the guess radius) or gives every atom exactly k distinct neighbours none of which is farther than any non-neighbour, listed in non-decreasing distance.", "quantifier": "all systems, all k, all thresholds, any tie order of the sort", "why_tests_cant": "depends on all distances and on unstable sort order for ties", "anchors": ["src/pyscal/system.cpp: get_all_neighbors_bynumber, get_temp_neighbors_brute", "src/pyscal/core.py: System.find_neighbors"]}
{"id": "C13", "title": "Adaptive cutoff follows its formula", "statement": "With cutoff='adaptive' or 0, the cutoff of each atom is padding times the mean of its nlimit smallest distances, and its neighbours are exactly the atoms closer than that cutoff (among those within the initial guess radius); if an atom has fewer than nlimit candidates a RuntimeError is raised.", "quantifier": "all systems, thresholds, nlimit, padding", "why_tests_cant": "statement about every atom of every configuration, any tie order", "anchors": ["src/pyscal/system.cpp: get_all_neighbors_adaptive", "src/pyscal/core.py: System.find_neighbors"]}
{"id": "C14", "title": "SANN neighbours are the m nearest atoms", "statement": "With cutoff='sann', the neighbours of an atom are its m nearest atoms, where m >= 3 is the smallest number with sum(first m distances)/(m-2) < distance m+1, and the atom cutoff is that quotient.", "quantifier": "all systems and thresholds", "why_tests_cant": "loop with data dependent exit over arbitrary distance sequences", "anchors": ["src/pyscal/system.cpp: get_all_neighbors_sann", "src/pyscal/core.py: System.find_neighbors"]}
{"id": "C15", "title": "The type filter is honoured by every neighbour method", "statement": "With filter='type' every neighbour found has the host's type, with filter='type_r' every neighbour has a different type, for every neighbour method; and no neighbour passing the filter is dropped because of it.", "quantifier": "all systems, methods, filters", "why_tests_cant": "product of methods, filters and type assignments", "anchors": ["src/pyscal/system.cpp: get_all_neighbors_normal, _cells, _adaptive, _sann, _bynumber, _voronoi", "src/pyscal/core.py: System.find_neighbors"]}
{"id": "C16", "title": "find_neighbors does not depend on earlier calculations", "statement": "The neighbours, and the order parameters computed from them, obtained after find_neighbors depend only on atoms, box and arguments, not on earlier neighbour searches, clusterings or analyses on the same System.", "quantifier": "all histories of neighbour searches before the last one", "why_tests_cant": "quantifies over call histories; stale flags only show for particular orders", "anchors": ["src/pyscal/system.cpp: reset_all_neighbors, voronoiused, calculate_q", "src/pyscal/core.py: System.find_neighbors"]}
{"id": "C17", "title": "Steinhardt q_l lies between 0 and 1", "statement": "For every l in 2..12 and every atom with at least one neighbour of the same condition and non-zero neighbour vectors, q_l is a real number with 0 <= q_l <= 1; with Voronoi weights the same holds; an atom without such neighbours gets NaN (0 after a Voronoi search).", "quantifier": "all neighbour configurations, all l in 2..12, all non-negative weights", "why_tests_cant": "bound over a continuum of configurations", "anchors": ["src/pyscal/system.cpp: calculate_q, QLM, YLM, PLM, dfactorial"]}
{"id": "C18", "title": "Steinhardt q_l is rotationally invariant", "statement": "Rotating (or reflecting) the neighbour vectors of an atom by any orthogonal matrix leaves q_l unchanged for every l in 2..12.", "quantifier": "all orthogonal matrices, all neighbour configurations, all l in 2..12", "why_tests_cant": "continuum of rotations; a test tries a few angles within a tolerance", "anchors": ["src/pyscal/system.cpp: calculate_q, QLM, YLM, PLM, convert_to_spherical_coordinates"]}
{"id": "C19", "title": "q_l is independent of neighbour order and of distances", "statement": "q_l does not change when the neighbour list is permuted or when any neighbour vector is scaled by a positive factor.", "quantifier": "all permutations, all scalings", "why_tests_cant": "continuum/permutation group", "anchors": ["src/pyscal/system.cpp: calculate_q"]}
{"id": "C20", "title": "Averaged q_l is the norm of the mean of the complex vectors and is bounded by the extremes", "statement": "After calculate_q(l, averaged=True), the averaged value of an atom is the norm of the mean of the complex q_lm vectors of the atom and its neighbours of equal condition; it is at most the largest q_l among these atoms, so at most 1, and equals q_l if all these vectors agree.", "quantifier": "all systems, all l", "why_tests_cant": "bound over all configurations", "anchors": ["src/pyscal/system.cpp: calculate_aq"]}
{"id": "C21", "title": "Bond correlation s_ij is symmetric and within [-1,1]", "statement": "For every pair of atoms with non-zero q vectors, s_ij = s_ji and -1 <= s_ij <= 1, with s_ii = 1; if one of the vectors vanishes the value is NaN.", "quantifier": "all pairs of q vectors", "why_tests_cant": "Cauchy-Schwarz over a continuum", "anchors": ["src/pyscal/system.cpp: get_number_from_bond"]}
{"id": "C22", "title": "find_solids counts solid bonds by the threshold", "statement": "After find_solids(threshold=t), the number of solid bonds of an atom is the number of neighbours with s_ij > t (right=True), and an atom is solid iff it has at least the requested number (or fraction) of solid bonds and its mean s_ij exceeds avgthreshold.", "quantifier": "all systems and parameter values", "why_tests_cant": "needs all s_ij patterns, including s_ij below threshold", "anchors": ["src/pyscal/system.cpp: calculate_frenkel_numbers, find_solid_atoms", "src/pyscal/core.py: System.find_solids"]}
{"id": "C23", "title": "right=False flips the comparison of find_solids", "statement": "With right=False, solid bonds are neighbours with s_ij < threshold and the average test is < avgthreshold.", "quantifier": "all systems and parameters", "why_tests_cant": "an ignored argument goes unnoticed unless compared on all inputs", "anchors": ["src/pyscal/core.py: System.find_solids", "src/pyscal/system.cpp: comparecriteria"]}
{"id": "C24", "title": "Rejected arguments leave the system unchanged", "statement": "calculate_q, get_qvals, find_solids, calculate_disorder, calculate_centrosymmetry, calculate_sro and calculate_pmsro raise for out-of-range arguments before modifying any atom or parameter, and accept every in-range argument.", "quantifier": "all argument values, all system states", "why_tests_cant": "frame condition over all states", "anchors": ["src/pyscal/core.py: calculate_q, get_qvals, find_solids, calculate_disorder, calculate_centrosymmetry, calculate_sro"]}
{"id": "C25", "title": "Clusters are connected components", "statement": "After cluster_atoms(condition) on symmetric neighbour lists with one common cutoff, an atom has cluster id -1 iff the condition is false; two atoms satisfying the condition share a cluster id iff they are connected by a chain of such atoms that are neighbours within the cutoff; ids are exactly 1..k.", "quantifier": "all neighbour graphs and conditions", "why_tests_cant": "graph reachability for every graph", "anchors": ["src/pyscal/system.cpp: find_clusters_recursive, harvest_cluster", "src/pyscal/core.py: System.cluster_atoms"]}
{"id": "C26", "title": "Largest cluster size and membership flags", "statement": "cluster_atoms(..., largest=True) returns the size of the largest cluster (0 if no atom satisfies the condition) and exactly the atoms of one largest cluster get largest_cluster=True.", "quantifier": "all labelings, all earlier clusterings on the same System", "why_tests_cant": "the empty case and stale state over histories", "anchors": ["src/pyscal/system.cpp: largest_cluster, get_largest_cluster_atoms"]}
{"id": "C27", "title": "CNA signatures count common neighbours and bonds", "statement": "For each neighbour of an atom, the CNA signature is (number of other neighbours within the cutoff of it, number of pairs among those within the cutoff of each other, maximum and minimum number of such bonds per common neighbour).", "quantifier": "all neighbour configurations and cutoffs", "why_tests_cant": "combinatorial counts for all configurations", "anchors": ["src/pyscal/system.cpp: get_common_neighbors, get_common_bonds"]}
{"id": "C28", "title": "CNA and diamond structure counts partition the atoms", "statement": "Whenever calculate_cna returns, its counts of others/fcc/hcp/bcc/ico add up to natoms and equal the numbers of atoms carrying each structure code; identify_diamond likewise with codes 0 and 4..10, never reporting fcc, hcp or bcc.", "quantifier": "all systems", "why_tests_cant": "holds for all configurations", "anchors": ["src/pyscal/system.cpp: calculate_cna, identify_cn12, identify_cn14, identify_diamond_structure, identify_cndia", "src/pyscal/core.py: calculate_cna, identify_diamond"]}
{"id": "C29", "title": "calculate_cna can be repeated", "statement": "Calling calculate_cna again, or after find_neighbors, on unchanged atoms gives the same result.", "quantifier": "all systems, all numbers of repetitions, all earlier neighbour searches", "why_tests_cant": "history dependence; tests call it once on a fresh system", "anchors": ["src/pyscal/system.cpp: calculate_cna, get_all_neighbors_bynumber, reset_main_neighbors"]}
{"id": "C30", "title": "Centrosymmetry is the sum of the nmax/2 smallest squared pair sums and detects inversion symmetry", "statement": "If every atom has nmax others within the search radius, calculate_centrosymmetry(nmax) assigns the sum of squared lengths of the nmax/2 smallest vectors r_i + r_j over pairs of the nmax nearest neighbours; it is non-negative and zero when the neighbours come in opposite pairs; odd or non-positive nmax raises ValueError.", "quantifier": "all systems for which the candidate search is exact (always unless cell lists are in use, which an earlier search on more than 4000 atoms switches on), all even nmax, any sort tie order", "why_tests_cant": "continuum of configurations", "anchors": ["src/pyscal/system.cpp: calculate_centrosymmetry, calculate_centrosymmetry_atom", "src/pyscal/core.py: calculate_centrosymmetry"]}
{"id": "C31", "title": "Chi parameters partition the neighbour pairs", "statement": "calculate_chiparams stores a 9 entry vector whose entries add up to n(n-1)/2 for an atom with n neighbours (non-zero vectors), each pair being counted in exactly the bin containing its cosine.", "quantifier": "all neighbour configurations", "why_tests_cant": "cosine bounds and bin edges for all configurations", "anchors": ["src/pyscal/core.py: calculate_chiparams"]}
{"id": "C32", "title": "Local entropy uses each atom's own density", "statement": "calculate_entropy(local=True) uses for each atom the density given by its own coordination and cutoff; so the entropy of an atom depends only on its own neighbour distances, coordination and cutoff.", "quantifier": "all systems and atom orders", "why_tests_cant": "needs non-uniform systems; order dependence", "anchors": ["src/pyscal/system.cpp: entropy", "src/pyscal/atom.cpp: gmr, entropy_integrand, trapezoid_integration"]}
{"id": "C33", "title": "Entropy integral is the trapezoid rule on the grid", "statement": "The entropy of an atom is -rho*kb times the trapezoid sum of the integrand over the grid rstart, rstart+h, ..., rstart+n*h with n = int((rm-rstart)/h) intervals.", "quantifier": "all integrands, steps and ranges", "why_tests_cant": "a missing node changes the result by O(h) and hides in tolerances", "anchors": ["src/pyscal/atom.cpp: trapezoid_integration"]}
{"id": "C34", "title": "Neighbour averages lie between the extremes", "statement": "Averaged entropy, averaged disorder and averaged Voronoi volume of an atom are the mean over the atom and its neighbours, or with a switching function the weighted mean if no neighbour is exactly at its radius ra; they lie between the smallest and largest values involved.", "quantifier": "all values and neighbour lists", "why_tests_cant": "bound over all data", "anchors": ["src/pyscal/system.cpp: average_entropy, find_average_disorder, find_average_volume, average_entropy_switch"]}
{"id": "C35", "title": "Disorder compares an atom with its neighbours", "statement": "calculate_disorder assigns to each atom the mean over its neighbours k of s_ii + s_kk - 2 s_ik; it is non-negative, at most 4, and zero if all neighbours have the atom's q vector.", "quantifier": "all systems", "why_tests_cant": "wrong indexing is invisible on perfect crystals", "anchors": ["src/pyscal/system.cpp: calculate_disorder"]}
{"id": "C36", "title": "Short range order follows Cowley's formula", "statement": "For a two component system calculate_sro assigns to every atom of the reference type 1 - n/(c*m) for each shell, with n the number of neighbours of the other type among the c neighbours of the shell and m the concentration of the other type; shells are the neighbours not farther / farther than the mean neighbour distance; values are at most 1, equal 1 iff the shell has no atom of the other type, and the average is the mean over reference atoms.", "quantifier": "all two-component systems and neighbour lists", "why_tests_cant": "all compositions and neighbourhoods", "anchors": ["src/pyscal/core.py: calculate_sro"]}
{"id": "C37", "title": "Multicomponent short range order uses the concentration of the compared type", "statement": "calculate_pmsro uses the fraction of atoms having compare_type, for every set of type numbers.", "quantifier": "all sets of integer types", "why_tests_cant": "tests use types 1..k only", "anchors": ["src/pyscal/core.py: calculate_pmsro"]}
{"id": "C38", "title": "The RDF histogram counts every pair once", "statement": "get_pairdistances returns one distance for each unordered pair, and with the default range every pair distance falls in exactly one bin of calculate_rdf, so bin counts add up to N(N-1)/2.", "quantifier": "all systems, all bin numbers", "why_tests_cant": "edge values (maximum, bin borders) for all inputs", "anchors": ["src/pyscal/system.cpp: get_pairdistances", "src/pyscal/core.py: calculate_rdf"]}
{"id": "C39", "title": "remap_atoms puts atoms in the box and separates them", "statement": "remap_atoms on an orthogonal box moves every atom that is less than one box length outside into the box, changing each coordinate by 0 or one box length; with remove_images the kept atoms are pairwise farther apart than dtol and each removed atom has a later atom within dtol; with remove_atoms every kept atom is inside the box; remapping twice changes nothing more.", "quantifier": "all positions, boxes and tolerances", "why_tests_cant": "pairwise statement over all configurations", "anchors": ["src/pyscal/core.py: remap_atoms", "src/pyscal/system.cpp: remap_atom"]}
{"id": "C40", "title": "make_crystal builds the requested crystal", "statement": "For each of the eight structures, any lattice constant a > 0, and repetitions >= 1 (noise 0), the result has coordination*nx*ny*nz atoms with ids 1..N and locations 0..N-1, all positions lie inside the returned box and are distinct, and the periodic structure equals that of the single unit cell; unknown structures raise ValueError.", "quantifier": "all structures, lattice constants and repetitions", "why_tests_cant": "unbounded repetitions", "anchors": ["src/pyscal/crystal_structures.py: make_crystal"]}
{"id": "C41", "title": "lammps-dump reading does not depend on column order", "statement": "Reading a dump snapshot whose header lists id, type, x, y, z and other columns in any order yields the atoms in file order with those fields, and requested custom columns as strings; exactly natoms rows are read; a custom column that is not a word of the header line raises KeyError and a header with neither x nor xs raises ValueError.", "quantifier": "all column orders, extra columns and numbers of atoms", "why_tests_cant": "factorially many headers", "anchors": ["src/pyscal/formats/lammps.py: read_snap"]}
{"id": "C42", "title": "lammps-dump write then read gives the same system", "statement": "Writing a system with to_file and reading it back gives the same atoms (id, type, position up to the printed 6 decimals, custom values) and the same box.", "quantifier": "all systems", "why_tests_cant": "round trip over all inputs, including triclinic boxes", "anchors": ["src/pyscal/formats/lammps.py: write_snap, read_snap"]}
{"id": "C43", "title": "split_trajectory partitions the file into its frames", "statement": "For a trajectory whose frames have equal size, split_trajectory writes one file per complete frame, frame k containing exactly lines k*(natoms+9) .. (k+1)*(natoms+9)-1 in order; an incomplete tail is dropped; file names are distinct.", "quantifier": "all files and frame counts", "why_tests_cant": "unbounded number of lines", "anchors": ["src/pyscal/formats/lammps.py: split_snaps"]}
{"id": "C44", "title": "Trajectory blocks tile the file and slices select them", "statement": "For a Trajectory, nblocks complete blocks partition the file's lines except for trailing stray lines; traj[k] for 0 <= k < nblocks (and negative k as in Python), and slices, select the same blocks as the corresponding Python list operations on the list of blocks.", "quantifier": "all files, indices and slices", "why_tests_cant": "all index values including negative and out of range", "anchors": ["src/pyscal/trajectory.py: Trajectory.__getitem__, get_block, _get_nblocks"]}
{"id": "C45", "title": "Adding timeslices concatenates without changing the operands", "statement": "a + b is a timeslice listing the blocks of a followed by those of b; a and b are unchanged; a + a is allowed; sum() of timeslices concatenates all.", "quantifier": "all timeslices and expressions built from them", "why_tests_cant": "aliasing and non-termination depend on the expression", "anchors": ["src/pyscal/trajectory.py: Timeslice.__add__, __radd__"]}
{"id": "C46", "title": "Loaded and edited blocks are written instead of the file content", "statement": "After any sequence of load, edit, unload and export calls, to_file writes for each selected block the in-memory data if it was loaded (and not unloaded since) and the original file lines otherwise; exporting does not change what is loaded.", "quantifier": "all operation sequences", "why_tests_cant": "state machine over unbounded histories", "anchors": ["src/pyscal/trajectory.py: load, unload, _get_blocks_to_file, Timeslice.to_dict, to_file"]}
{"id": "C47", "title": "Trajectory.iter visits the requested blocks", "statement": "iter('ascending') yields 0,1,..,n-1; iter('descending') yields the last n block indices in decreasing order starting with the last block; iter('random') yields n distinct block indices; all yielded indices are valid block numbers.", "quantifier": "all trajectories and n_slices values", "why_tests_cant": "off by one in a generator for all n", "anchors": ["src/pyscal/trajectory.py: Trajectory.iter"]}
{"id": "C48", "title": "ASE conversion round trip", "statement": "Reading an ASE object with n >= 1 atoms into a System and converting back gives the same species, positions and cell, including for small systems with ghosts.", "quantifier": "all ASE objects", "why_tests_cant": "type numbering from sorted unique species for all species lists", "anchors": ["src/pyscal/formats/ase.py: read_snap, convert_snap", "src/pyscal/core.py: read_inputfile, to_ase"]}
{"id": "C49", "title": "POSCAR writer groups atoms by type", "statement": "The POSCAR writer emits every real atom exactly once, grouped by increasing type with the counts line giving the group sizes, keeping order within a group.", "quantifier": "all systems", "why_tests_cant": "permutation statement over all atom lists", "anchors": ["src/pyscal/formats/vasp.py: write_poscar"]}
{"id": "C50", "title": "get_custom looks up custom values, attributes and q values in that order", "statement": "get_custom returns for each key the custom entry if present, else the atom attribute, else q_l/averaged q_l for keys qN/aqN with N in 2..12, and raises otherwise.", "quantifier": "all atoms and keys", "why_tests_cant": "decision logic over all key strings", "anchors": ["src/pyscal/core.py: get_custom", "src/pyscal/atom.cpp: gq_big"]}
{"id": "C51", "title": "Files in any ASE format can be read and written", "statement": "read_inputfile/to_file with a format other than the built in ones uses ASE and succeeds whenever ASE does; otherwise a TypeError is raised.", "quantifier": "all format names, all ASE outcomes", "why_tests_cant": "needs the ASE success path for a non built-in format", "anchors": ["src/pyscal/traj_process.py: read_file, write_file"]}
{"id": "C52", "title": "set_q/get_q round trip", "statement": "After set_q(l, v) get_q(l) returns v and all other q values are unchanged, for every l in 2..12; any other l raises; averaged and plain values are independent; a list call that raises leaves the atom unchanged.", "quantifier": "all l, values and lists", "why_tests_cant": "all combinations", "anchors": ["src/pyscal/atom.cpp: gq_big, sq_big"]}
{"id": "C53", "title": "calculate_q only changes the requested q values", "statement": "calculate_q(ls) changes only q_l for l in ls (and averaged ones if requested) and depends only on neighbours; results for one l do not depend on which other l are requested; get_qvals returns one value per real atom in order.", "quantifier": "all lists of l, all systems", "why_tests_cant": "frame condition", "anchors": ["src/pyscal/system.cpp: calculate_q, calculate_aq, gqvals", "src/pyscal/core.py: calculate_q, get_qvals"]}
{"id": "C54", "title": "Voronoi weights are normalised", "statement": "After find_neighbors(method='voronoi') without filter, the neighbour weights of an atom are non-negative and sum to one for every voroexp, whatever face areas the tessellation reports (not all zero).", "quantifier": "all face areas and exponents", "why_tests_cant": "continuum of areas", "anchors": ["src/pyscal/system.cpp: get_all_neighbors_voronoi"]}
{"id": "C55", "title": "Voronoi vector counts faces by edge number", "statement": "calculate_vorovector stores (n3,n4,n5,n6), the numbers of faces with weight above area_cutoff that have exactly 3,4,5,6 edges longer than edge_cutoff of the face perimeter; n3+n4+n5+n6 is at most the number of faces.", "quantifier": "all tessellation outputs", "why_tests_cant": "all polyhedra", "anchors": ["src/pyscal/core.py: calculate_vorovector"]}
{"id": "C56", "title": "Atom cutoffs assigned by set_atom_cutoff are scaled mean neighbour distances", "statement": "set_atom_cutoff(f) sets each cutoff to f times the mean neighbour distance; for f >= max/mean all neighbours are within the cutoff.", "quantifier": "all neighbour lists and factors", "why_tests_cant": "all data", "anchors": ["src/pyscal/system.cpp: set_atom_cutoff"]}
{"id": "C57", "title": "Analyses that write atoms back keep the neighbour information", "statement": "After find_neighbors, calling calculate_chiparams, calculate_angularcriteria, calculate_vorovector, cluster_atoms or calculate_q with a condition leaves the results of any later order-parameter calculation unchanged.", "quantifier": "all systems, in particular small ones with ghosts, and all orders of calls", "why_tests_cant": "history dependence only for small systems", "anchors": ["src/pyscal/core.py: atoms setter, cluster_atoms, calculate_chiparams"]}
{"id": "C58", "title": "extract_cubic_box returns atoms inside the returned box", "statement": "extract_cubic_box either raises ValueError or returns an orthogonal box with non-negative edges and atoms whose positions all lie in [0,edge) along each axis.", "quantifier": "all triclinic systems", "why_tests_cant": "all cells and repetition counts", "anchors": ["src/pyscal/core.py: extract_cubic_box"]}
{"id": "C59", "title": "Angular criterion is non-negative and vanishes for a tetrahedron", "statement": "calculate_angularcriteria assigns the sum over the six pairs of the four nearest neighbours of (cos+1/3)^2, which is non-negative and zero exactly when all six angles have cosine -1/3.", "quantifier": "all neighbour configurations", "why_tests_cant": "continuum of angles", "anchors": ["src/pyscal/core.py: calculate_angularcriteria"]}
{"id": "C60", "title": "Energy averages use the neighbours of the system", "statement": "calculate_energy(averaged=True) assigns to each atom the mean of its own and its neighbours' energies and leaves the neighbour lists of the System in place.", "quantifier": "all systems, with or without neighbours calculated before", "why_tests_cant": "needs an external engine and several call orders", "anchors": ["src/pyscal/core.py: calculate_energy"]}
{"id": "C61", "title": "q_l is the Legendre average over neighbour pairs", "statement": "After calculate_q([..l..]), q_l of an atom equals the square root of the weighted mean, over all ordered pairs of its participating neighbours (pairs with itself included), of the Legendre polynomial P_l of the cosine of the angle between the two neighbour vectors.", "quantifier": "all neighbour configurations, weights and l in 2..12", "why_tests_cant": "the spherical harmonic addition theorem over a continuum of angles", "anchors": ["src/pyscal/system.cpp: calculate_q, QLM, YLM, PLM, dfactorial"]}
{"id": "C62", "title": "get_qlm returns spherical harmonic components", "statement": "The components returned by get_qlm(l) satisfy q_{l,-m} = (-1)^m conj(q_{l,m}), as averages of spherical harmonics do.", "quantifier": "all neighbour configurations, all l and m", "why_tests_cant": "continuum of configurations; the norms tested by unit tests do not see it", "anchors": ["src/pyscal/system.cpp: QLM", "src/pyscal/atom.cpp: get_qcomps"]}
{"id": "C63", "title": "CNA structure codes follow the signatures", "statement": "After calculate_cna on a fresh system in which every atom has 14 others within the search radius, the structure of each atom is 1 (fcc) exactly if all of its 12 nearest neighbours have signature (4,2,1,1), 2 (hcp) exactly if six have (4,2,1,1) and six (4,2,2,0), 4 (ico) exactly if all have (5,5,2,2); otherwise 3 (bcc) exactly if among the 14 nearest six have (4,4,2,2) and eight (6,6,2,2); otherwise 0. Two neighbours count as bonded exactly if they are within the cutoff, which is adaptive or derived from the lattice constant.", "quantifier": "all fresh systems for which the candidate search is exact (always unless cell lists are in use), all lattice constants", "why_tests_cant": "continuum of positions; every combination of signatures", "anchors": ["src/pyscal/system.cpp: calculate_cna, get_acna_neighbors, get_cna_neighbors, get_common_neighbors, get_common_bonds, identify_cn12, identify_cn14", "src/pyscal/core.py: calculate_cna"]}
{"id": "C64", "title": "Atoms around diamond sites are labelled by shell", "statement": "After identify_diamond an atom is labelled 5 (cubic) or 8 (hexagonal) exactly if its list of second neighbours, reached through its four nearest atoms, has twelve (4,2,1,1) signatures or six (4,2,1,1) and six (4,2,2,0). Any other atom is labelled 6 or 9 exactly if one of its four nearest atoms is a diamond site, the first such atom deciding the kind, and 7 or 10 exactly if none of those but one of the second neighbours is, again the first deciding.", "quantifier": "all systems for which the candidate search is exact", "why_tests_cant": "order-dependent labelling passes over arbitrary neighbour graphs", "anchors": ["src/pyscal/system.cpp: identify_diamond_structure, identify_cndia, get_diamond_neighbors", "src/pyscal/core.py: identify_diamond"]}
{"id": "C65", "title": "Voronoi vertex positions are the vertices of the cell", "statement": "After find_neighbors(method='voronoi') the vertex positions of every atom are the vertices of its Voronoi cell in space, each listed once, whatever was calculated before.", "quantifier": "all systems, tessellations and earlier calculations", "why_tests_cant": "history-dependent: a single search on a fresh system looks correct", "anchors": ["src/pyscal/system.cpp: get_all_neighbors_voronoi", "src/pyscal/atom.cpp: Atom vertex_positions", "src/pyscal/core.py: System.find_neighbors"]}
{"id": "C66", "title": "remap_atoms changes nothing but positions", "statement": "remap_atoms(assign=False) leaves the system unchanged, and remap_atoms on atoms that are all inside the box and farther apart than dtol leaves everything unchanged: stored atoms including ghosts, and the box used for distances.", "quantifier": "all orthogonal systems, padded or not, and all flag combinations", "why_tests_cant": "depends on hidden state (the ghosts and the padded box) that the returned list does not show", "anchors": ["src/pyscal/core.py: System.remap_atoms", "src/pyscal/core.py: System.atoms"]}
{"id": "C67", "title": "The extracted cubic box is a period of the crystal", "statement": "When extract_cubic_box returns, each edge of the returned box is a translation that maps the periodic crystal of the system to itself.", "quantifier": "all systems and repetition counts", "why_tests_cant": "examples use one-atom cells where the nearest aligned atom is always a lattice translate", "anchors": ["src/pyscal/core.py: System.extract_cubic_box"]}
{"id": "C68", "title": "extract_cubic_box does not change the system", "statement": "extract_cubic_box leaves the atoms, counts, reported box and all distances of the system as they were.", "quantifier": "all systems and repetition counts", "why_tests_cant": "the change is to the box used in distances, which is not the one reported", "anchors": ["src/pyscal/core.py: System.extract_cubic_box", "src/pyscal/core.py: System.repeat"]}
{"id": "C69", "title": "get_concentration counts the atoms of every type", "statement": "get_concentration lists each type that occurs among the atoms exactly once with the number of atoms of that type; ghosts are not counted and the counts add up to the number of atoms.", "quantifier": "all systems, padded or not", "why_tests_cant": "must hold for all type lists and padding states", "anchors": ["src/pyscal/core.py: System.get_concentration", "src/pyscal/core.py: System.iter_atoms"]}
{"id": "C70", "title": "Plain and scaled dumps of one configuration are read as the same structure", "statement": "A lammps-dump with scaled coordinates (xs, ys, zs) and one with plain coordinates of the same configuration give the same box and the same differences between atom positions, in orthogonal and triclinic cells.", "quantifier": "all cells with positive edges, tilt factors, origins, atoms and column orders", "why_tests_cant": "the cell, the origin and the number of atoms are free; tests use one file", "anchors": ["src/pyscal/formats/lammps.py: read_snap"]}
{"id": "C71", "title": "Triclinic dumps: the cell is recovered from the bounding box", "statement": "For a dump written with the LAMMPS convention (the bounds are those of the smallest box along the axes containing the cell, with tilt factors xy, xz, yz) read_inputfile gives exactly the cell vectors (lx,0,0), (xy,ly,0), (xz,yz,lz), and every atom lies at its fractional position up to one translation common to all atoms.", "quantifier": "all cells with positive edges, all tilt factors of either sign, all origins and atoms", "why_tests_cant": "signs of the three tilts and their sum select different branches; positions are continuous", "anchors": ["src/pyscal/formats/lammps.py: read_snap"]}
{"id": "C72", "title": "Splitting a file and opening it as a trajectory give the same frames", "statement": "For every multi-frame dump, block k of the Trajectory opened from it holds the same lines as file k written by split_trajectory, and there are as many blocks as files.", "quantifier": "all files and block numbers", "why_tests_cant": "two implementations of the same cutting must agree for every file length", "anchors": ["src/pyscal/trajectory.py: Trajectory.get_block", "src/pyscal/traj_process.py: split_trajectory"]}
{"id": "C73", "title": "to_ase maps atom types to the given species", "statement": "to_ase(species) of a system without stored species makes every atom of type t an atom of species number t at the same position in the cell of the system; a wrong number of species is an error; the call can be repeated with other species.", "quantifier": "all systems, type lists, species lists and repeated calls", "why_tests_cant": "type numbering with gaps and the stored result of an earlier call are not visible in a single conversion", "anchors": ["src/pyscal/formats/ase.py: convert_snap", "src/pyscal/core.py: System.to_ase"]}
{"id": "C74", "title": "Translating all atoms changes nothing", "statement": "Setting up the same box with every atom moved by the same vector and running find_neighbors (any method, any filter) and calculate_q gives, atom by atom, the same neighbours, distances, weights, vectors and q values, plain and averaged; if one run raises an error the other raises the same error.", "quantifier": "all boxes (orthogonal or skewed), atom lists, translation vectors, methods, filters and degrees for which all pairs are compared (no cell lists)", "why_tests_cant": "a continuum of translations and positions; every branch of every search method", "anchors": ["src/pyscal/core.py: System.atoms, System.find_neighbors, System.calculate_q", "src/pyscal/system.cpp: get_abs_distance, get_all_neighbors_normal, get_all_neighbors_sann, get_all_neighbors_adaptive, get_all_neighbors_bynumber"]}
{"id": "C75", "title": "Rotating the whole system rotates the result", "statement": "Rotating the box and all atoms by the same rotation leaves neighbours, distances, weights and q values as they were and rotates the neighbour vectors; mirror images have the mirrored result.", "quantifier": "all boxes, rotations and reflections, atom lists, methods, filters and degrees", "why_tests_cant": "a continuum of rotations; the code treats boxes by shape, handedness and the sum of the box entries", "anchors": ["src/pyscal/core.py: System.box, System.atoms, System.find_neighbors", "src/pyscal/system.cpp: get_abs_distance, get_all_neighbors_bynumber"]}
{"id": "C76", "title": "Results do not depend on the unit of length", "statement": "Multiplying box, positions and a numeric cutoff by the same positive factor multiplies all distances and neighbour vectors by it and leaves neighbours, weights and q values unchanged, for every method and filter; errors are the same.", "quantifier": "all positive factors, boxes, atom lists, methods, filters and degrees for which all pairs are compared", "why_tests_cant": "a continuum of factors; hidden absolute tolerances would break it", "anchors": ["src/pyscal/core.py: System.box, System.atoms, System.find_neighbors, System.calculate_q", "src/pyscal/system.cpp: get_abs_distance, get_all_neighbors_normal, get_all_neighbors_sann, get_all_neighbors_adaptive, get_all_neighbors_bynumber"]}
{"id": "C77", "title": "The order of the atoms does not matter", "statement": "Giving the atoms in another order and searching with a numeric or adaptive cutoff gives every atom the same position, type, q values (plain and averaged) and the same neighbours up to order, with their numbers changed accordingly; periodic copies added to small systems keep their cell. The search for a number of nearest atoms gives the same distances, and the same neighbours except for a choice among those at the largest distance.", "quantifier": "all permutations of all atom lists, all boxes, cutoffs and filters (with cell lists: in boxes and for cutoffs where these find every pair)", "why_tests_cant": "n! orders; sums are taken in different orders and small systems are padded with copies", "anchors": ["src/pyscal/core.py: System.atoms, System.find_neighbors, System.calculate_q, System.repeat", "src/pyscal/system.cpp: get_all_neighbors_normal"]}
{"id": "C78", "title": "Putting atoms back into the cell changes nothing", "statement": "Translating all atoms and then moving every atom by a lattice vector of its own (for example to wrap it back into the cell) leaves neighbours, distances, vectors and q values unchanged, unless two atoms are exactly half a cell apart, where the direction is arbitrary.", "quantifier": "all orthogonal and skewed boxes, atom lists, translations and lattice vectors that keep atoms within one and a half cells of each other", "why_tests_cant": "a continuum of positions; whether a pair crosses the boundary changes pair by pair", "anchors": ["src/pyscal/core.py: System.atoms, System.find_neighbors", "src/pyscal/system.cpp: get_abs_distance"]}
{"id": "C79", "title": "Surface atoms", "statement": "After cluster_atoms (also through find_solids) an atom is flagged as a surface atom exactly when at least one of its neighbours is not solid.", "quantifier": "all systems, neighbour lists, solid flags, conditions and cutoffs", "why_tests_cant": "the flag depends on all neighbours of all atoms and is written while clusters are searched", "anchors": ["src/pyscal/core.py: System.cluster_atoms, System.find_solids", "src/pyscal/system.cpp: largest_cluster", "src/pyscal/atom_binding.cpp: surface"]}
{"id": "C80", "title": "Atom attributes read back", "statement": "After any sequence of assignments to the attributes of an Atom, every attribute reads as the value last assigned to it, and as before if none was; set_q and get_q agree in the same way for all numbers 2 to 12, and allq, allaq list the same values.", "quantifier": "all atoms, all sequences of assignments, all attribute names and values", "why_tests_cant": "the attributes share arrays of fixed size and the list of bindings is long; a test fixes one attribute and one size", "anchors": ["src/pyscal/atom_binding.cpp: Atom", "src/pyscal/atom.cpp: gneighbors, sneighbors, sneighborweights, gq_big, sq_big, gallq, get_qcomps"]}
{"id": "C81", "title": "Neighbour attributes describe the same neighbours", "statement": "In the attributes with one entry per neighbour (neighbors, neighbor_distance, neighbor_weights, neighbor_vector, local_angles, coordination, and sij once find_solids has run) entry i always describes the i-th neighbour, whatever the atom held before.", "quantifier": "all previous contents, all lists of neighbours found by a search, all lists assigned by the user", "why_tests_cant": "arrays are reused between searches, so stale entries depend on the history", "anchors": ["src/pyscal/atom.cpp: sneighbors, sneighborweights, gneighbors", "src/pyscal/system.cpp: process_neighbor, reset_all_neighbors", "src/pyscal/atom_binding.cpp: Atom"]}
{"id": "C82", "title": "Comparison of atomic environments", "statement": "compare_atomic_env(infile, atomtype, precision, print_results=False) returns the different Voronoi volumes (rounded) of the atoms of the type, with the fingerprint belonging to each volume and the number of atoms with it.", "quantifier": "all files, types, precisions and tessellations", "why_tests_cant": "volumes and fingerprints are made unique separately; a test with one environment cannot tell", "anchors": ["src/pyscal/misc.py: compare_atomic_env", "src/pyscal/core.py: System.calculate_vorovector"]}
{"id": "C83", "title": "Tetrahedral positions", "statement": "find_tetrahedral_voids returns type, volume and position (in direct coordinates on request) of exactly the atoms with four four-edged Voronoi faces and four nearest neighbours within the tolerance.", "quantifier": "all systems, boxes, tolerances and both settings of direct_coordinates", "why_tests_cant": "depends on the box, on periodic copies among the neighbours and on the number of atoms", "anchors": ["src/pyscal/misc.py: find_tetrahedral_voids"]}
{"id": "C84", "title": "Next neighbours", "statement": "After a neighbour search with a cutoff, store_neighbor_info gives each atom, for each of its neighbours in order, that neighbour's neighbours with their distances; the atom itself occurs in each of these lists, at the distance of that neighbour.", "quantifier": "all systems, cutoffs and filters", "why_tests_cant": "a relation between the lists of all pairs of neighbours", "anchors": ["src/pyscal/system.cpp: store_neighbor_info", "src/pyscal/atom_binding.cpp: next_neighbors, next_neighbor_distances"]}
{"id": "C85", "title": "Analysis leaves the sample alone", "statement": "After the box and the atoms of a System are assigned, any sequence of analysis calls (neighbour searches, Voronoi, order parameters, solids, clusters, disorder, common neighbour analysis, diamond, centrosymmetry, angles, entropy, short range order, energies, resets) leaves the atoms read from sys.atoms with the same number, order, ids, types and positions, and leaves natoms, sys.box and all distances unchanged.", "quantifier": "all boxes, all lists of atoms (padded with periodic copies or not), all sequences of calls in any order with any parameters", "why_tests_cant": "many calls read the atoms out, change them and assign them again, which rebuilds the periodic copies and the box; a test fixes one sequence", "anchors": ["src/pyscal/core.py: System.atoms, System.box, all analysis methods", "src/pyscal/system.cpp: set_atoms, reset_main_neighbors, find_voronoi and the analysis functions"]}
{"id": "C86", "title": "A neighbour search gives the same result at every point of a history", "statement": "Assign a box and atoms to a new System. find_neighbors with a given method (cutoff, adaptive cutoff, sann, number) and given arguments has the same outcome directly after that and after any sequence of analysis calls that do not assign atoms or box: the same exception, or for every atom the same neighbours with the same distances, weights and vectors in the same order.", "quantifier": "all boxes, atom lists, histories of analysis calls, methods, arguments and filters", "why_tests_cant": "Histories are unbounded and mix calls; some calls add and remove periodic copies, so only particular sequences show the difference.", "anchors": ["src/pyscal/core.py:System.find_neighbors", "src/pyscal/core.py:System.repeat", "src/pyscal/core.py:System.embed_in_cubic_box"]}
{"id": "C87", "title": "A neighbour search that raises does not spoil the system", "statement": "If find_neighbors raises an exception, the System is as before the call: the neighbours found earlier, results of earlier analyses, positions, box and settings are unchanged, and a later search has the outcome it would have had without the failed call.", "quantifier": "all systems, methods, arguments and filters for which the call raises, at whatever atom it gives up", "why_tests_cant": "The exception can come at any atom of a loop that has already changed the atoms before it; the observable damage depends on that crash point and on the calls before and after.", "anchors": ["src/pyscal/core.py:System.find_neighbors", "src/pyscal/system.cpp:get_all_neighbors_bynumber", "src/pyscal/system.cpp:get_all_neighbors_sann", "src/pyscal/system.cpp:get_all_neighbors_adaptive"]}
{"id": "C88", "title": "find_solids with clustering returns the largest cluster of solid atoms", "statement": "After find_neighbors, find_solids(cluster=True) marks the same atoms solid, with the same bond numbers, as find_solids(cluster=False); atoms that are not solid belong to no cluster; two solid atoms belong to the same cluster iff a chain of solid neighbours joins them; the value returned is the number of atoms of the largest cluster, whose atoms are exactly those flagged as the largest cluster, and it is 0 iff no atom is solid.", "quantifier": "all systems, cutoffs, filters and arguments of find_solids for which the calls succeed", "why_tests_cant": "Connectivity over arbitrary neighbour graphs combined with an arbitrary solid/liquid pattern; a test checks a few crystals where all atoms are in one cluster.", "anchors": ["src/pyscal/core.py:System.find_solids", "src/pyscal/core.py:System.cluster_atoms", "src/pyscal/system.cpp:find_clusters_recursive", "src/pyscal/system.cpp:largest_cluster"]}
{"id": "C89", "title": "An interrupted dump file is not taken for a complete one", "statement": "If the writing of a lammps-dump file is interrupted at any point, read_inputfile on what is there raises an exception; it never silently gives a System with fewer atoms than the file states.", "quantifier": "all dump files and all points at which the file may end", "why_tests_cant": "Every prefix of every file is a crash point; a test can cut a few files at a few places.", "anchors": ["src/pyscal/formats/lammps.py:read_snap", "src/pyscal/formats/lammps.py:write_snap", "src/pyscal/core.py:System.read_inputfile"]}
{"id": "C90", "title": "Atoms beyond the cutoff have no influence", "statement": "If two systems in the same box differ only in atoms that are at least the cutoff away from atom i, then after find_neighbors(method='cutoff') atom i has the same neighbours (numbers, distances, vectors) and the same q values and components in both. If they also differ only in atoms at least the cutoff away from each neighbour of i, the averaged q values, the correlations with the neighbours, the number of solid bonds and the solid/liquid verdict of i are the same.", "quantifier": "all pairs of systems, all atoms, cutoffs and filters", "why_tests_cant": "Relates two runs on arbitrary inputs that differ anywhere outside a sphere; a test compares a few configurations.", "anchors": ["src/pyscal/system.cpp:get_all_neighbors_normal", "src/pyscal/core.py:System.find_neighbors", "src/pyscal/system.cpp:calculate_q", "src/pyscal/system.cpp:calculate_aq", "src/pyscal/system.cpp:calculate_frenkel_numbers", "src/pyscal/system.cpp:find_solid_atoms"]}
{"id": "C91", "title": "A larger cutoff, padding or number only adds neighbours, and clusters only merge", "statement": "If a search succeeds, the same search with a smaller cutoff, padding or nmax succeeds too; the list of every atom for the smaller cutoff or padding is the longer list without the entries beyond a distance, in the same order, and for the smaller nmax it is the beginning of the longer list. Clustering with a larger cutoff puts atoms together that were together before, and leaves out the same atoms.", "quantifier": "all systems, all pairs of cutoffs (paddings, numbers), all conditions that do not depend on the neighbours", "why_tests_cant": "Relates two runs on arbitrary inputs; a test compares a few parameters.", "anchors": ["src/pyscal/core.py:System.find_neighbors", "src/pyscal/system.cpp:get_all_neighbors_normal", "src/pyscal/system.cpp:get_all_neighbors_adaptive", "src/pyscal/system.cpp:get_all_neighbors_bynumber", "src/pyscal/core.py:System.cluster_atoms"]}
{"id": "C92", "title": "Results depend on the crystal, not on the cell chosen to describe it", "statement": "Two atoms, in the same System or in two different ones, that see the same atoms (positions relative to them, and types) in the infinite periodic crystal get the same results: find_neighbors(method='cutoff') gives them the same neighbour vectors, distances and types, calculate_q the same q and averaged q values and components, find_solids the same correlations, number of solid bonds and verdict, calculate_entropy (in systems of the same density) the same entropy and averaged entropy, calculate_chiparams the same counts; the search by number gives the same distances, and the same neighbours except for ties at the largest distance, and the adaptive search the same cutoff and neighbours. In particular a cell and any supercell of it, with or without the padding below 200 atoms, and equivalent sites of one crystal, agree.", "quantifier": "all pairs of boxes (orthogonal and skewed), lists of atoms and atoms in them; all cutoffs up to half of every height of the box in which the atoms are stored", "why_tests_cant": "Relates runs with different numbers of atoms, boxes and paddings; a test compares a few supercells of a few perfect crystals.", "anchors": ["src/pyscal/core.py:System.find_neighbors", "src/pyscal/core.py:System.calculate_q", "src/pyscal/core.py:System.find_solids", "src/pyscal/core.py:System.atoms", "src/pyscal/core.py:System.repeat", "src/pyscal/system.cpp:get_all_neighbors_normal", "src/pyscal/system.cpp:calculate_q", "src/pyscal/system.cpp:calculate_aq", "src/pyscal/system.cpp:get_abs_distance"]}
{"id": "C93", "title": "A slice of a trajectory converts to one ASE object per frame", "statement": "Timeslice.to_ase(species) returns one object per selected block, in the order of the selection (across added slices of several trajectories, repeated blocks included). Its cell has the edge lengths of the frame, and it has one atom per row of the frame, in order, at the position of the row and with the species numbered by the type. The result for a frame does not depend on which other frames are selected.", "quantifier": "all dump files with orthogonal boxes, all selections, all lists of species", "why_tests_cant": "Quantifies over files, selections and species; in particular over frames in which some species has no atom, which a test on one trajectory of a fixed composition never sees.", "anchors": ["src/pyscal/trajectory.py:Timeslice.to_ase", "src/pyscal/trajectory.py:Trajectory._get_block_as_ase", "src/pyscal/formats/ase.py:convert_snap", "src/pyscal/core.py:System.read_inputfile"]}
{"id": "C94", "title": "embed_in_cubic_box encloses the cell", "statement": "After embed_in_cubic_box the box is the smallest box along the axes that contains the cell: its edges are the extents of the cell along x, y and z. A Voronoi search in a skewed box, which uses it, therefore hands every atom to the tessellation as a point of its own.", "quantifier": "all invertible cells; all atoms in them", "why_tests_cant": "Quantifies over all cells and orientations; tests use cells with the first vector along x.", "anchors": ["src/pyscal/core.py:System.embed_in_cubic_box", "src/pyscal/core.py:System.find_neighbors", "src/pyscal/system.cpp:get_all_neighbors_voronoi"]}
{"id": "C95", "title": "Perfect crystals: coordination numbers and Steinhardt values of the structure", "statement": "Build a crystal with make_crystal (sc, bcc, fcc, diamond, a15, l12 or b2), assign it to a System and call find_neighbors(method='cutoff') with a cutoff between the shell of nearest neighbours and the next one. Every atom then has exactly the coordination number of the structure (6, 8, 12, 4, 12 or 14, 12, 8), with filter='type' or 'type_r' the number of those of its own or of another type, and its neighbour vectors are those of the structure. calculate_q gives every atom the textbook values of q2 to q12 (in fcc q4 = sqrt(7/192) and q6 = sqrt(169/512)), whatever the lattice constant, the repetitions and the cutoff; in sc, bcc, fcc, l12 and b2 the averaged values are the same.", "quantifier": "all lattice constants, all repetitions in x, y and z (with and without padding and cell lists), all cutoffs between the two shells that fit into the box", "why_tests_cant": "Quantifies over a continuum of lattice constants and cutoffs and over unboundedly many sizes; tests check one size with rounded values.", "anchors": ["src/pyscal/crystal_structures.py:make_crystal", "src/pyscal/core.py:System.find_neighbors", "src/pyscal/core.py:System.calculate_q", "src/pyscal/core.py:System.atoms", "src/pyscal/system.cpp:get_all_neighbors_normal", "src/pyscal/system.cpp:calculate_q", "src/pyscal/system.cpp:calculate_aq"]}
{"id": "C96", "title": "Common neighbour analysis recognises every perfect crystal", "statement": "Build a crystal with make_crystal and assign it to a System. calculate_cna, without a lattice constant (adaptive) or with the right one, labels every atom of an fcc or l12 crystal 1, of an hcp crystal 2 (c/a from 1.38 to 2), of a bcc or b2 crystal 3, and the list it returns has the number of atoms at that place and zeros elsewhere. identify_diamond likewise labels every atom of a diamond crystal 5.", "quantifier": "all lattice constants, all c/a in the range, all repetitions in x, y and z (with and without padding) for which the stored box has edges of at least three (fcc, diamond), four to five (hcp) or five (bcc) lattice constants", "why_tests_cant": "Quantifies over a continuum of lattice constants and unboundedly many sizes; tests check one size of each structure.", "anchors": ["src/pyscal/crystal_structures.py:make_crystal", "src/pyscal/core.py:System.calculate_cna", "src/pyscal/core.py:System.atoms", "src/pyscal/system.cpp:get_cna_neighbors", "src/pyscal/system.cpp:get_acna_neighbors", "src/pyscal/system.cpp:get_common_neighbors", "src/pyscal/system.cpp:identify_cn12", "src/pyscal/system.cpp:identify_cn14", "src/pyscal/system.cpp:calculate_cna", "src/pyscal/core.py:System.identify_diamond", "src/pyscal/system.cpp:get_diamond_neighbors", "src/pyscal/system.cpp:identify_cndia"]}
{"id": "C97", "title": "Centrosymmetry of perfect crystals", "statement": "Build a crystal with make_crystal and assign it to a System. calculate_centrosymmetry(nmax) gives every atom exactly 0 if nmax is the number of atoms in the first one or two whole shells of a structure with inversion symmetry at every site (sc 6, 18; bcc and b2 8, 14; fcc and l12 12, 18). In diamond with nmax = 4 every atom gets a^2/2, in hcp with nmax = 12 every atom gets a^2, whatever c/a between 1.38 and 2.", "quantifier": "all lattice constants, all repetitions in x, y and z (with and without padding) for which the stored box has edges of at least three lattice constants", "why_tests_cant": "Quantifies over a continuum of lattice constants and unboundedly many sizes, and over every order in which equally distant neighbours and equal pair sums may be sorted; tests check one fcc crystal.", "anchors": ["src/pyscal/crystal_structures.py:make_crystal", "src/pyscal/core.py:System.calculate_centrosymmetry", "src/pyscal/core.py:System.atoms", "src/pyscal/system.cpp:get_all_neighbors_bynumber", "src/pyscal/system.cpp:calculate_centrosymmetry", "src/pyscal/system.cpp:calculate_centrosymmetry_atom"]}
{"id": "C98", "title": "Small displacements do not change neighbours and structures", "statement": "make_crystal with noise returns the atoms of the crystal without noise, in the same order and with the same box, ids and types, each moved by noise times its random numbers. For such a crystal, or any other one whose atoms have each been moved by up to d in any direction: calculate_cna still classifies every atom as fcc (fcc, l12; d up to 3.3 % of the lattice constant with the adaptive cutoff, 7.2 % with the cutoff from the lattice constant) or bcc (bcc, b2; d up to 2.2 %), find_neighbors with a cutoff at least 2 d away from the first and second shells gives every atom the coordination number of the structure, and in general a cutoff finds the same neighbours before and after if no two atoms are at a distance within 2 d of it. calculate_centrosymmetry(nmax), with nmax the atoms of the first one or two whole shells of sc, bcc, b2, fcc or l12, gives every atom a value between 0 and nmax/2 (4 d)^2, for d up to a bound between 2.1 % and 10.3 % of the lattice constant that depends on the structure and nmax.", "quantifier": "all lattice constants, repetitions for which the stored box is large enough, all displacements of all atoms up to the bound (above 2300 atoms without coordinates less than 1e-6 below zero, for the coordination number), all random number streams", "why_tests_cant": "The displacements form a continuum with three dimensions per atom and the stream is random; a test draws one stream and one amplitude.", "anchors": ["src/pyscal/crystal_structures.py:make_crystal", "src/pyscal/core.py:System.calculate_cna", "src/pyscal/core.py:System.find_neighbors", "src/pyscal/core.py:System.atoms", "src/pyscal/system.cpp:get_cna_neighbors", "src/pyscal/system.cpp:get_acna_neighbors", "src/pyscal/system.cpp:calculate_cna", "src/pyscal/system.cpp:get_all_neighbors_normal", "src/pyscal/core.py:System.calculate_centrosymmetry", "src/pyscal/system.cpp:calculate_centrosymmetry"]}
{"id": "C99", "title": "Perfect crystals are solid throughout, one cluster, and without disorder", "statement": "For a crystal built with make_crystal (sc, bcc, fcc, diamond, l12, b2), after a search for its nearest neighbours and for every even degree from 4 to 12: find_solids, with thresholds below 1 and a required number of bonds below the coordination number (or a required fraction below 1; the defaults qualify), sets all s_ij to 1, counts every neighbour as a bond and flags every atom as solid; with cluster=True it returns the number of atoms, all atoms carry the same cluster id and all are flagged as members of the largest cluster. calculate_q followed by calculate_disorder gives the disorder 0 for every atom (averaged or not; all of these structures except diamond).", "quantifier": "all lattice constants, repetitions, cutoffs between the first and second shells, degrees, thresholds and bond requirements in the stated ranges, with or without periodic copies, any number of atoms", "why_tests_cant": "Examples in the tests run one or two structures and sizes with the default thresholds; the claim is about every size, scale and threshold at once, and about chains through the whole crystal.", "anchors": ["src/pyscal/crystal_structures.py:make_crystal", "src/pyscal/core.py:System.find_solids", "src/pyscal/core.py:System.cluster_atoms", "src/pyscal/core.py:System.calculate_disorder", "src/pyscal/system.cpp:get_number_from_bond", "src/pyscal/system.cpp:calculate_frenkel_numbers", "src/pyscal/system.cpp:find_solid_atoms", "src/pyscal/system.cpp:find_clusters_recursive", "src/pyscal/system.cpp:calculate_disorder"]}
{"id": "C100", "title": "Bond order parameters change continuously when the atoms move", "statement": "After find_neighbors with a cutoff and calculate_q, moving every atom by at most d changes each q_l and averaged q_l by at most sqrt(l(l+1)/2) * 2d / rho, where rho + 2d bounds the distances of the stored atoms from below, as long as no distance lies within 2d of the cutoff; NaN stays NaN and numbers stay numbers. So q_l depends continuously on the positions wherever no two atoms coincide or are exactly the cutoff apart, and in a make_crystal crystal (sc, bcc, fcc, diamond, b2, l12) with noise the values stay within that bound of those of the perfect structure. With K the bound and Q the value of the perfect structure, s_ij of even degree stays at least 1 - 2 (K/(Q-K))^2 there, so for thresholds below this number find_solids still flags every atom as solid and finds one cluster.", "quantifier": "all positions, displacements, cutoffs at most half of the box, degrees 2 to 12, box lengths (orthogonal), with or without periodic copies", "why_tests_cant": "A test compares two sets of positions at a time; a bound on the change for every displacement and every degree needs a proof.", "anchors": ["src/pyscal/core.py:System.calculate_q", "src/pyscal/core.py:System.find_neighbors", "src/pyscal/core.py:System.find_solids", "src/pyscal/system.cpp:calculate_q", "src/pyscal/system.cpp:calculate_aq", "src/pyscal/system.cpp:get_abs_distance", "src/pyscal/system.cpp:get_number_from_bond", "src/pyscal/system.cpp:find_solid_atoms", "src/pyscal/crystal_structures.py:make_crystal"]}
{"id": "C101", "title": "The attributes of a new Atom have defined values", "statement": "Every attribute of Atom(pos=..., id=..., type=...) read before any calculation has a value that follows from the arguments of the constructor: the position, id and type given, and fixed start values for everything else, whatever the memory of the process held before.", "quantifier": "all arguments of the constructor, all attributes of the class, all contents of the memory", "why_tests_cant": "Fresh memory is often zero in a short test run, so a test of the defaults passes whether or not they are set.", "anchors": ["src/pyscal/atom.cpp:Atom::Atom", "src/pyscal/atom.h:Atom", "src/pyscal/atom_binding.cpp"]}
{"id": "C102", "title": "Chi parameters of perfect crystals", "statement": "After make_crystal (sc, bcc, fcc, diamond, l12, b2), find_neighbors with a cutoff between the nearest neighbours and the next shell, and calculate_chiparams, every atom has the chi vector of its structure: [3,0,0,0,0,12,0,0,0] for sc, [4,0,0,0,12,0,0,12,0] for bcc and b2, [6,0,0,0,24,12,0,24,0] for fcc and l12, [0,0,0,0,6,0,0,0,0] for diamond.", "quantifier": "all lattice constants, repetitions and cutoffs for which the box is large enough, with or without periodic copies and cell lists", "why_tests_cant": "A test checks one lattice constant and size; the vector has to be the same for each.", "anchors": ["src/pyscal/core.py: calculate_chiparams", "src/pyscal/crystal_structures.py:make_crystal", "src/pyscal/core.py:System.find_neighbors"]}
{"id": "C103", "title": "Distances and neighbours are right up to rounding", "statement": "In double precision get_distance is symmetric, never negative, and zero from an atom to itself, in every box. In an orthogonal box it differs from the length of the shortest periodic image by at most (lx+ly+lz)/2^51, also where rounding moves a difference across half a box length. A search with a numeric cutoff gives symmetric lists without duplicates that contain every atom closer than the cutoff by more than this bound and none further away by as much; so in a crystal, stored with rounded positions, every atom has the coordination number of the structure.", "quantifier": "all positions in the box, all box lengths and cutoffs, all ways of breaking ties in rounding to nearest (symmetric in the sign where symmetry is claimed); no overflow or underflow; up to 2300 atoms for searches, 200 to 2300 for crystals", "why_tests_cant": "Rounding errors depend on every bit of the input; tests compare a few distances with a tolerance.", "anchors": ["src/pyscal/core.py:System.get_distance", "src/pyscal/system.cpp:get_abs_distance", "src/pyscal/system.cpp:get_all_neighbors_normal", "src/pyscal/core.py:System.find_neighbors"]}
{"id": "C104", "title": "Angular criterion of a perfect diamond crystal is zero", "statement": "After make_crystal('diamond', ...), find_neighbors with a cutoff between the nearest neighbours and the next shell, and calculate_angularcriteria, the attribute angular of every atom is 0.", "quantifier": "all lattice constants, repetitions and cutoffs for which the box is large enough", "why_tests_cant": "A test checks one lattice constant and size, while small systems are stored with periodic copies and large ones with cell lists.", "anchors": ["src/pyscal/core.py:System.calculate_angularcriteria", "src/pyscal/crystal_structures.py:make_crystal", "src/pyscal/core.py:System.find_neighbors"]}
{"id": "C105", "title": "Short range order of perfect ordered compounds", "statement": "After make_crystal('b2' or 'l12', ...) and find_neighbors with a cutoff between the second and the third shell, calculate_sro(reference_type=1 or 2, average=True, shells=2) returns [-1, 1] for B2 and [-1/3, 1] for L12, and every atom of the reference type has these values as its sro. calculate_pmsro gives the same values for every pair of types (with delta=True where a type is compared with itself).", "quantifier": "all lattice constants, repetitions and cutoffs for which the box is large enough, both reference types", "why_tests_cant": "A test checks one size and one reference type; the mean distance that separates the shells and the concentration depend on the size and on the stored copies.", "anchors": ["src/pyscal/core.py:System.calculate_sro", "src/pyscal/crystal_structures.py:make_crystal", "src/pyscal/core.py:System.find_neighbors"]}
{"id": "C106", "title": "Atoms on the same site of a crystal get the same results", "statement": "After make_crystal with any structure and find_neighbors with a numeric cutoff, two atoms that are whole cells apart (in sc, bcc and fcc: any two atoms) have the same neighbour vectors, distances and types, and get the same q and averaged q, the same correlations, bonds and verdict from find_solids, the same entropy and averaged entropy and the same chi parameters. In sc, bcc and fcc the averaged entropy equals the entropy.", "quantifier": "all eight structures, lattice constants, repetitions and pairs of atoms, all cutoffs that fit into the box, not only between shells, all parameters of the calculations", "why_tests_cant": "The pairs of atoms include those at borders, where periodic images, copies or cell lists are used in different ways; a test looks at one cutoff and size.", "anchors": ["src/pyscal/crystal_structures.py:make_crystal", "src/pyscal/core.py:System.find_neighbors", "src/pyscal/core.py:System.calculate_q", "src/pyscal/core.py:System.find_solids", "src/pyscal/core.py:System.calculate_entropy", "src/pyscal/core.py:System.calculate_chiparams"]}
{"id": "C107", "title": "In a binary alloy calculate_pmsro and calculate_sro agree", "statement": "If the atoms are of the types 1 and 2, both present, then after any neighbour search calculate_pmsro(reference_type=r, compare_type=the other type) leaves the same system, returns the same value and raises the same exceptions as calculate_sro(reference_type=r), and so does calculate_pmsro(reference_type=r, compare_type=r, delta=True).", "quantifier": "all lists of atoms of two types, boxes, search methods, both reference types, averaged or not, any number of shells, including atoms without neighbours", "why_tests_cant": "The two methods count different atoms (stored ones including periodic copies, and real ones) and use different formulas; a test compares them for one alloy.", "anchors": ["src/pyscal/core.py:System.calculate_sro", "src/pyscal/core.py:System.calculate_pmsro"]}
{"id": "C108", "title": "What is done with one System does not show in another", "statement": "calculate_chiparams(angles=True) stores in atom.custom['cosines'] the cosines of the angles between the neighbours of the atom, one for each pair of neighbours; and whatever is done with one System (setting the box or atoms, searching, calculate_chiparams, editing custom values of its atoms), every other System shows the same atoms, attributes and custom values as before.", "quantifier": "all histories of calls, raising or not, on any number of systems; all atoms, boxes and searches", "why_tests_cant": "A test works with one System at a time; sharing shows only when two live together.", "anchors": ["src/pyscal/core.py:System.calculate_chiparams", "src/pyscal/core.py:System.atoms", "src/pyscal/atom.h:Atom.custom", "src/pyscal/system.cpp:set_atoms", "src/pyscal/system.cpp:get_atoms"]}
{"id": "C109", "title": "Types, ids and earlier results are only labels", "statement": "Give a System either a list of atoms or the same atoms with other ids, other stored results and renamed types, where different types stay different. Then find_neighbors (any method except Voronoi, any filter) followed by calculate_q raises the same exception or succeeds in both cases, with the same neighbours, distances, vectors and requested Steinhardt parameters for every atom.", "quantifier": "all systems with any history, all lists of atoms, all ways to rename types, all searches and filters, any number of atoms", "why_tests_cant": "A test uses types 1 and 2 and fresh atoms; that no other numbering or leftover value matters is a statement about all of them.", "anchors": ["src/pyscal/core.py:System.find_neighbors", "src/pyscal/core.py:System.calculate_q", "src/pyscal/core.py:System.atoms", "src/pyscal/system.cpp:get_all_neighbors_normal", "src/pyscal/system.cpp:get_all_neighbors_cells", "src/pyscal/system.cpp:get_all_neighbors_adaptive"]}
{"id": "C110", "title": "calculate_q with a condition uses the neighbours on the same side only", "statement": "calculate_q(ls, condition=f, averaged=...) gives every atom the values it would have if it kept only the neighbours for which f gives the same value as for the atom itself. It raises RuntimeError if f fails on the first atom or gives something other than 0 or 1 there.", "quantifier": "all systems and neighbour lists, all conditions, all lists of l, averaged or not", "why_tests_cant": "The claim compares two calculations for every neighbour list and every condition; it also depends on the number of atoms, through the periodic copies.", "anchors": ["src/pyscal/core.py:System.calculate_q", "src/pyscal/system.cpp:calculate_q", "src/pyscal/system.cpp:calculate_aq"]}
{"id": "C111", "title": "The layout of a dump file does not matter", "statement": "Two lammps-dump files with the same fields in every line are read to the same System or raise the same exception, whatever whitespace stands before, between and after the fields, and whatever the three title lines and the timestep are.", "quantifier": "all files, well formed or not, with one field in the line of the number of atoms; all whitespace of Python with numbers below 0x1680; all custom keys", "why_tests_cant": "The number of layouts of one file is unbounded; tests read files written by one program.", "anchors": ["src/pyscal/formats/lammps.py: read_snap", "src/pyscal/core.py:System.read_inputfile"]}
{"id": "C112", "title": "Stricter arguments of find_solids never give more solid atoms", "statement": "On the same system, asking find_solids for more bonds (a number or a share) or for a larger avgthreshold, with the other arguments unchanged, makes no further atom solid; with cluster=True the clusters of the stricter call lie within those of the looser call and the number returned is not larger. The same is expected of a larger threshold.", "quantifier": "all systems and neighbour lists, all pairs of comparable arguments, all q, with and without clustering", "why_tests_cant": "The claim compares two runs for every system and every pair of arguments.", "anchors": ["src/pyscal/core.py:System.find_solids", "src/pyscal/system.cpp:calculate_frenkel_numbers", "src/pyscal/system.cpp:find_solid_atoms", "src/pyscal/core.py:System.cluster_atoms"]}
{"id": "C113", "title": "find_solids gives the same answer when it is called again", "statement": "Between two neighbour searches, find_solids with the same arguments gives every atom the same correlations, number of solid bonds, mean correlation and solid flag, however often it, calculate_disorder and calculate_q were called before, with whatever arguments.", "quantifier": "all systems and neighbour lists, all histories of these calls, all arguments", "why_tests_cant": "The claim is about every history of analyses on every system; tests call find_solids once on a fresh system.", "anchors": ["src/pyscal/core.py:System.find_solids", "src/pyscal/core.py:System.cluster_atoms", "src/pyscal/system.cpp:calculate_q", "src/pyscal/system.cpp:get_number_from_bond", "src/pyscal/core.py:System.calculate_disorder"]}
{"id": "C114", "title": "Types, ids and earlier results are only labels for find_solids", "statement": "Give a System a list of atoms, or the same atoms with other ids, other stored results and their types renamed such that different types stay different. After any neighbour search, with any filter, find_solids(cluster=False) raises the same exception or gives each atom the same neighbours, correlations, number of solid bonds, mean correlation and solid flag.", "quantifier": "all systems with any history, all lists of atoms, all renamings, all searches except Voronoi, all arguments of find_solids", "why_tests_cant": "The claim compares two runs for every list of atoms and every renaming; stale results of an earlier analysis could enter in ways that tests on fresh atoms never reach.", "anchors": ["src/pyscal/core.py:System.find_solids", "src/pyscal/core.py:System.find_neighbors", "src/pyscal/system.cpp:calculate_frenkel_numbers", "src/pyscal/system.cpp:get_number_from_bond", "src/pyscal/system.cpp:find_solid_atoms"]}
{"id": "C115", "title": "A stricter clustering gives clusters within clusters", "statement": "Cluster the same atoms twice, the second time after a search with a cutoff not larger, with a condition that holds only where the first does and with a separate clustering cutoff not larger. Every cluster of the second call lies within one cluster of the first, and the number returned (largest=True) is not larger.", "quantifier": "all systems, all pairs of cutoffs and conditions comparable in this way, cell lists included where they are exact", "why_tests_cant": "The claim compares two runs for every configuration and every pair of conditions; it is about connectivity through chains of any length.", "anchors": ["src/pyscal/core.py:System.cluster_atoms", "src/pyscal/system.cpp:find_clusters_recursive", "src/pyscal/system.cpp:harvest_cluster", "src/pyscal/system.cpp:largest_cluster"]}
{"id": "C116", "title": "cluster_atoms does not depend on earlier clusterings", "statement": "Between two neighbour searches, cluster_atoms with the same condition and cutoff gives the same cluster ids and the same size of the largest cluster, whatever was clustered or analysed before; without a cutoff argument it uses the cutoff of the neighbour search.", "quantifier": "all systems, all histories of cluster_atoms, find_solids, calculate_disorder and calculate_q, all conditions and cutoffs", "why_tests_cant": "The claim is about every history of calls on every system; tests cluster a fresh system once.", "anchors": ["src/pyscal/core.py:System.cluster_atoms", "src/pyscal/core.py:System.find_solids", "src/pyscal/system.cpp:find_clusters_recursive", "src/pyscal/system.cpp:harvest_cluster"]}
{"id": "C117", "title": "calculate_entropy does not depend on earlier analyses", "statement": "Between two neighbour searches, calculate_entropy with the same arguments gives every atom the same entropy, whatever was clustered or analysed before.", "quantifier": "all systems, all histories of cluster_atoms, find_solids, calculate_disorder and calculate_q, all arguments of calculate_entropy", "why_tests_cant": "The claim is about every history of calls on every system; tests compute the entropy directly after the search.", "anchors": ["src/pyscal/core.py:System.calculate_entropy", "src/pyscal/core.py:System.cluster_atoms", "src/pyscal/system.cpp:entropy", "src/pyscal/system.cpp:find_clusters_recursive"]}
{"id": "C118", "title": "angular criteria and chi parameters do not depend on earlier analyses", "statement": "Between two neighbour searches, calculate_angularcriteria and calculate_chiparams give every atom the same values, whatever was clustered or analysed before.", "quantifier": "all systems, all histories of cluster_atoms, find_solids, calculate_disorder and calculate_q", "why_tests_cant": "The claim is about every history of calls on every system; tests compute these parameters directly after the search.", "anchors": ["src/pyscal/core.py:System.calculate_angularcriteria", "src/pyscal/core.py:System.calculate_chiparams", "src/pyscal/core.py:System.cluster_atoms", "src/pyscal/core.py:System.find_solids"]}
