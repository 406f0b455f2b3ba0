{"id": "C01", "title": "Grid-point index and address are mutually inverse", "statement": "For a mesh with positive mesh numbers D, converting a grid-point index to its address and back returns the index; converting an address with components in [0, D_i) to an index and back returns the address; indices lie in [0, D0*D1*D2); the table of all addresses lists at row i the address of index i.", "quantifier": "every mesh D of positive integers, every grid-point index in range, every address", "why_tests_cant": "Meshes are unbounded; a test fixes a handful of meshes.", "anchors": ["c/grgrid.c:get_grid_index_from_address", "c/grgrid.c:get_grid_address_from_index", "c/grgrid.c:get_all_grid_addresses"]}
{"id": "C02", "title": "Addresses that differ by a mesh translation, and only those, share a grid point", "statement": "The grid-point index of an arbitrary integer address (negative components included) is in range, and two addresses get the same index exactly when they agree modulo the mesh in every component. The pure-Python routine and the compiled routine return the same index.", "quantifier": "every positive mesh, every pair of integer addresses", "why_tests_cant": "Negative and far-away addresses are infinitely many; C and Python use different remainder conventions.", "anchors": ["c/lagrid.c:lagmat_modulo_l", "c/grgrid.c:grg_get_grid_index", "phono3py/phonon/grid.py:get_grid_point_from_address_py", "phono3py/phonon/grid.py:get_grid_point_from_address"]}
{"id": "C03", "title": "A mesh-compatible rotation permutes the grid points", "statement": "If a rotation maps mesh translations to mesh translations and respects the half-grid shift, then rotating grid points by index never leaves the grid, is injective, and composing two rotations equals rotating by their product.", "quantifier": "every positive mesh, every shift in {0,1}^3, every integer rotation satisfying the compatibility condition, every grid point", "why_tests_cant": "Ranges over all meshes, shifts and point groups.", "anchors": ["c/grgrid.c:rotate_grid_index", "c/grgrid.c:get_double_grid_index", "phono3py/phonon/grid.py:BZGrid._satisfy_shift_symmetry"]}
{"id": "C04", "title": "The irreducible grid map picks the smallest member of every symmetry orbit", "statement": "For any point group compatible with the mesh, the irreducible map sends every grid point to the smallest index in its orbit; two points have the same image exactly when they are symmetry-equivalent; the map is idempotent.", "quantifier": "every positive mesh, every finite group of compatible rotations, every shift, every grid point", "why_tests_cant": "The algorithm reuses earlier entries of the map it is writing; correctness is an induction over the mesh.", "anchors": ["c/grgrid.c:get_ir_grid_map", "phono3py/phonon/grid.py:get_ir_grid_points", "phono3py/phonon/grid.py:_get_ir_grid_map"]}
{"id": "C05", "title": "Irreducible weights count every grid point exactly once", "statement": "get_ir_grid_points returns irreducible points and weights such that every weight is the size of the orbit of its point, all weights are positive, and the weights add up to the number of grid points; the number of irreducible points returned by the compiled routine is the number of orbits.", "quantifier": "every positive mesh and compatible group", "why_tests_cant": "Sum over all grid points of an arbitrary mesh.", "anchors": ["phono3py/phonon/grid.py:get_ir_grid_points", "c/recgrid.c:recgrid_get_ir_grid_map"]}
{"id": "C06", "title": "The reciprocal point group is complete, duplicate-free and closed under inversion", "statement": "From any list of direct-space rotations the routine returns each distinct rotation (transposed when requested) exactly once; with time reversal the list is closed under negation; it reports failure exactly when more than 48 distinct rotations would be needed (more than 24 when inversion has to be added); if the input is a group, the output is a group.", "quantifier": "every list of integer matrices, both flags", "why_tests_cant": "Lists of rotations with arbitrary repetition and order.", "anchors": ["c/grgrid.c:grg_get_reciprocal_point_group"]}
{"id": "C07", "title": "Rotations transformed to the generalized grid are exact and mesh-compatible", "statement": "When the transformation of rotations into the grid basis succeeds (in exact arithmetic), each result R' satisfies D Q^-1 R Q D^-1 = R' exactly up to the tolerance, it maps mesh translations to mesh translations, and it preserves products; it fails when some entry is not within tolerance of an integer.", "quantifier": "every unimodular Q, every positive D, every integer rotation", "why_tests_cant": "All supercell-like grid matrices.", "anchors": ["c/grgrid.c:grg_transform_rotations", "c/lagrid.c:lagmat_get_similar_matrix_ld3"]}
{"id": "C08", "title": "Smith normal form of a grid matrix is a correct factorisation", "statement": "When the decomposition reports success, P A Q = diag(D) with P and Q integer matrices of determinant +1 or -1 and all D_i positive, so that the number of grid points D0 D1 D2 equals |det A|; it reports failure for every singular matrix.", "quantifier": "every 3x3 integer matrix A", "why_tests_cant": "All integer matrices; the algorithm iterates gcd steps.", "anchors": ["c/snf3x3.c:snf3x3", "c/grgrid.c:grg_get_snf3x3", "phono3py/phonon/grid.py:GridMatrix"]}
{"id": "C09", "title": "Every Brillouin-zone grid point is a translate of the grid point it is filed under", "statement": "In the generated BZ grid, each address equals the address of its regular-grid point plus an integer combination of mesh translations, and the BZ-to-regular map gives exactly the grid-point index of that address, in both storage layouts. Generation fails (returns 0) exactly when |det Q| is not 1.", "quantifier": "every mesh, shift, unimodular Q, reciprocal lattice and tolerance; both layouts", "why_tests_cant": "Holds for all lattices, even pathological tolerances.", "anchors": ["c/bzgrid.c:bzg_get_bz_grid_addresses", "c/bzgrid.c:set_bz_address", "c/bzgrid.c:get_inverse_unimodular_matrix_l3"]}
{"id": "C10", "title": "The dense grid-point map cuts the BZ grid into non-empty consecutive blocks, one per grid point", "statement": "With the dense map the pointers start at 0, strictly increase, end at the number of BZ grid points, and BZ points in block i are exactly those whose regular grid point is i; grg2bzg followed by bzg2grg is the identity.", "quantifier": "every mesh, lattice and positive tolerance", "why_tests_cant": "Prefix-sum invariant over all grid points.", "anchors": ["c/bzgrid.c:get_bz_grid_addresses_type2", "phono3py/phonon/grid.py:BZGrid._set_bz_grid"]}
{"id": "C11", "title": "The sparse layout stores one BZ point per grid point first and the surface copies after", "statement": "With the sparse map, BZ index i < N is an image of grid point i; surface copies occupy indices from N on, grouped by grid point, and the pointers stored after the doubled-mesh table delimit exactly the copies of each grid point.", "quantifier": "every mesh, lattice and positive tolerance", "why_tests_cant": "Running counters over all grid points.", "anchors": ["c/bzgrid.c:get_bz_grid_addresses_type1"]}
{"id": "C12", "title": "Both BZ-grid layouts hold the same set of addresses", "statement": "For the same input the sparse and dense layouts contain the same BZ addresses with the same multiplicity, hence the same number of BZ grid points, and the images of a grid point appear in the same order.", "quantifier": "every mesh, shift, lattice, tolerance", "why_tests_cant": "Two independently written loops over an arbitrary mesh.", "anchors": ["c/bzgrid.c:get_bz_grid_addresses_type1", "c/bzgrid.c:get_bz_grid_addresses_type2"]}
{"id": "C13", "title": "BZ images are the nearest ones, and distinct", "statement": "Each stored BZ image is, among the 125 searched translates, within twice the tolerance of the smallest distance, every exactly nearest translate is stored, and no address is stored twice.", "quantifier": "every mesh, lattice and positive tolerance", "why_tests_cant": "Tolerance-driven selection over real distances.", "anchors": ["c/bzgrid.c:get_bz_distances", "c/bzgrid.c:set_bz_address"]}
{"id": "C14", "title": "Rotating a BZ grid point returns the BZ point with the rotated address", "statement": "If the rotated address is one of the stored images, rotation by index returns its BZ index; otherwise it returns a BZ point that is translationally equivalent to the rotated address.", "quantifier": "every generated BZ grid in both layouts, every rotation and BZ point", "why_tests_cant": "All grids and rotations; the fallback branch is normally unreachable in tests.", "anchors": ["c/bzgrid.c:bzg_rotate_grid_index", "phono3py/phonon/grid.py:_get_grid_points_by_bz_rotations_py"]}
{"id": "C15", "title": "Triplets conserve crystal momentum", "statement": "Every triplet (q0,q1,q2) returned for a grid point has addresses summing to zero modulo the mesh, its first member is translationally equivalent to the requested grid point and its second to the irreducible q1.", "quantifier": "every BZ grid in both layouts, every grid point, every triplet map", "why_tests_cant": "All meshes and grid points.", "anchors": ["c/triplet_grid.c:get_BZ_triplets_at_q_type1", "c/triplet_grid.c:get_BZ_triplets_at_q_type2", "phono3py/phonon3/triplets.py:get_triplets_at_q"]}
{"id": "C16", "title": "Triplet weights account for every q1 exactly once", "statement": "Triplet weights are positive and add up to the number of grid points, and there is exactly one triplet per class of the triplet map.", "quantifier": "every mesh, grid point, group, with and without q1-q2 exchange and mesh symmetry", "why_tests_cant": "Sum over the mesh.", "anchors": ["phono3py/phonon3/triplets.py:get_triplets_at_q", "phono3py/phonon3/triplets.py:_get_triplets_reciprocal_mesh_at_q", "c/triplet_grid.c:get_ir_triplets_at_q_perm_q1q2", "c/triplet_grid.c:get_ir_triplets_at_q_noperm"]}
{"id": "C17", "title": "Triplets are identified exactly by little-group rotation and q1-q2 exchange", "statement": "Two q1 points share a triplet class exactly when one is obtained from the other by a rotation that fixes q0, possibly combined with the exchange q1 <-> q2 = -q0-q1 (when exchange is allowed); the class representative is its smallest grid point; the reported number of irreducible triplets equals the number of classes.", "quantifier": "every mesh, grid point and finite compatible group", "why_tests_cant": "The exchange pass uses only one comparison per class; correctness needs group theory.", "anchors": ["c/triplet_grid.c:get_ir_triplets_at_q_perm_q1q2", "c/triplet_grid.c:get_reciprocal_point_group_with_q"]}
{"id": "C18", "title": "Triplets avoid umklapp whenever possible and otherwise minimise |G|", "statement": "If some combination of BZ images of (q0,q1,q2) has addresses summing to exactly zero, the returned triplet sums to zero; otherwise the returned triplet has the smallest |G| among all combinations up to tolerance.", "quantifier": "every BZ grid and grid point", "why_tests_cant": "Minimisation over all image combinations.", "anchors": ["c/triplet_grid.c:get_BZ_triplets_at_q_type2", "c/triplet_grid.c:get_LQD_inv", "c/gridsys.c:gridsys_get_bz_triplets_at_q", "c/phono3py.c:ph3py_get_BZ_triplets_at_q"]}
{"id": "C19", "title": "Tetrahedron tables tile the cube around a grid point", "statement": "For each of the four main-diagonal choices the 24 relative-address tetrahedra each contain the centre, have equal volume, and together with translations cover each of the 8 surrounding microcells with 6 tetrahedra; the chosen diagonal is a shortest one.", "quantifier": "all four tables; every reciprocal lattice for the choice of diagonal", "why_tests_cant": "Choice of diagonal ranges over all lattices.", "anchors": ["c/tetrahedron_method.c:thm_get_relative_grid_address", "c/tetrahedron_method.c:get_main_diagonal"]}
{"id": "C20", "title": "Vertex sorting in the tetrahedron method is a sorted permutation that tracks the centre", "statement": "The four vertex frequencies are returned in non-decreasing order, as a permutation of the input, and the reported position holds the frequency of the centre vertex.", "quantifier": "every four real frequencies, ties included", "why_tests_cant": "Continuum of inputs and all ties.", "anchors": ["c/tetrahedron_method.c:sort_omegas"]}
{"id": "C21", "title": "Tetrahedron weights are non-negative and complete", "statement": "In each frequency interval the per-vertex weights of the state-density formula and of the number-of-states formula add up to one over the four vertices, the number of states lies in [0,1] and is non-decreasing in frequency, and density weights are non-negative.", "quantifier": "every sorted quadruple of frequencies and every frequency strictly inside an interval", "why_tests_cant": "Continuum of inputs; rational-function identities.", "anchors": ["c/tetrahedron_method.c:_I", "c/tetrahedron_method.c:_J", "c/tetrahedron_method.c:_n", "c/tetrahedron_method.c:_g"]}
{"id": "C22", "title": "The integrated tetrahedron density is continuous at vertex frequencies and is the derivative of the number of states", "statement": "The number-of-states function is continuous across vertex frequencies and its derivative in every open interval is the density used for the integration weight.", "quantifier": "every quadruple of frequencies with distinct values", "why_tests_cant": "Analytic statement over the continuum.", "anchors": ["c/tetrahedron_method.c:_n_1", "c/tetrahedron_method.c:_g_1"]}
{"id": "C23", "title": "Outside the frequency window the tetrahedron weight vanishes, so it may be skipped", "statement": "When a frequency is outside the range spanned by all tetrahedra, the integration weight is exactly zero, and entries flagged as zero-weight have weight zero.", "quantifier": "every set of vertex frequencies and every frequency", "why_tests_cant": "The flag decides which interactions are computed at all.", "anchors": ["c/tetrahedron_method.c:thm_in_tetrahedra", "c/triplet_iw.c:set_g", "c/triplet_iw.c:tpi_get_integration_weight"]}
{"id": "C24", "title": "Smearing weights flagged zero are really below the cutoff", "statement": "With a smearing cutoff, a band combination is flagged zero exactly when all its delta-function arguments exceed the cutoff, and its weights are then zero; without cutoff nothing is flagged.", "quantifier": "every frequency triple, smearing width and cutoff", "why_tests_cant": "Continuum of inputs.", "anchors": ["c/triplet_iw.c:tpi_get_integration_weight_with_sigma"]}
{"id": "C25", "title": "Skipping zero-weight interactions does not change the linewidth", "statement": "The imaginary self-energy computed with the compact list of non-zero integration weights equals the full sum over all band pairs, at zero and finite temperature.", "quantifier": "every interaction strength array, weight array consistent with its zero flags, temperature", "why_tests_cant": "Arrays of arbitrary size.", "anchors": ["c/imag_self_energy_with_g.c:ise_imag_self_energy_at_triplet", "c/imag_self_energy_with_g.c:ise_set_g_pos"]}
{"id": "C26", "title": "Normal and Umklapp parts add up to the total linewidth", "statement": "Splitting into normal and Umklapp processes partitions the triplets by whether the addresses sum to zero, and gamma_N + gamma_U = gamma.", "quantifier": "every triplet list, weights and interaction strengths", "why_tests_cant": "Sum over an arbitrary list of triplets.", "anchors": ["c/pp_collision.c:finalize_ise", "c/triplet.c:tpl_is_N", "c/imag_self_energy_with_g.c:ise_get_detailed_imag_self_energy_at_bands_with_g"]}
{"id": "C27", "title": "Detailed linewidths integrate back to the linewidth", "statement": "The per-triplet, per-band-pair detailed self-energy summed over bands and weighted triplets equals the total imaginary self-energy.", "quantifier": "every triplet list and array", "why_tests_cant": "Two separately written accumulations.", "anchors": ["c/imag_self_energy_with_g.c:ise_get_detailed_imag_self_energy_at_bands_with_g", "c/imag_self_energy_with_g.c:ise_get_imag_self_energy_at_bands_with_g"]}
{"id": "C28", "title": "Averaging over degenerate bands preserves the sum and is idempotent", "statement": "Averaging a band quantity over degenerate sets preserves its sum, is idempotent, commutes with addition, and makes the values inside each set equal.", "quantifier": "every set partition and every band quantity", "why_tests_cant": "All partitions and real values.", "anchors": ["phono3py/phonon3/imag_self_energy.py:average_by_degeneracy", "phono3py/phonon/func.py"]}
{"id": "C29", "title": "Frequency points are processed in batches that cover each point once, in order", "statement": "The batches used to compute frequency-dependent self-energies concatenate to 0..n-1 exactly, whatever the total and the batch size.", "quantifier": "every number of frequency points and batch size", "why_tests_cant": "Divisibility edge cases for all sizes.", "anchors": ["phono3py/phonon3/imag_self_energy.py:get_freq_points_batches"]}
{"id": "C30", "title": "Self-energy files average each selected band group over its own bands", "statement": "When band groups are selected, each written quantity is the average over exactly the bands of that group in the order of selection.", "quantifier": "every list of band groups", "why_tests_cant": "Running offset over arbitrary lists.", "anchors": ["phono3py/phonon3/imag_self_energy.py:write_imag_self_energy"]}
{"id": "C31", "title": "Permutation symmetrisation of third-order force constants is a projection", "statement": "After symmetrisation fc3 is invariant under all six simultaneous permutations of atoms and Cartesian indices, applying it again changes nothing, and a symmetric fc3 is left unchanged; the order in which atom triples are visited is irrelevant.", "quantifier": "every number of atoms and every fc3 array (exact arithmetic), every loop schedule", "why_tests_cant": "In-place update with OpenMP over atom triples.", "anchors": ["c/fc3.c:fc3_set_permutation_symmetry_fc3", "phono3py/phonon3/fc3.py:set_permutation_symmetry_fc3"]}
{"id": "C32", "title": "Transposition of compact fc3 is consistent with the full array and undoes itself", "statement": "Transposing the compact fc3 over an index pair gives the compact form of the transposed full fc3, for translationally invariant fc3; applying it twice restores the input.", "quantifier": "every supercell/primitive mapping satisfying the translation tables and every fc3", "why_tests_cant": "All supercells.", "anchors": ["c/fc3.c:fc3_transpose_compact_fc3"]}
{"id": "C33", "title": "Translational-invariance correction removes the drift", "statement": "Subtracting the average over one atom index makes the sum over that index vanish, and leaves fc3 unchanged when it already vanishes.", "quantifier": "every fc3 array and index", "why_tests_cant": "All sizes.", "anchors": ["phono3py/phonon3/fc3.py:set_translational_invariance_fc3", "phono3py/phonon3/fc3.py:set_translational_invariance_fc3_per_index"]}
{"id": "C34", "title": "Distributing fc3 to symmetry-equivalent first atoms rotates every tensor index", "statement": "The fc3 block copied to an equivalent first atom equals the source block with atoms permuted by the space-group operation and all three Cartesian indices rotated.", "quantifier": "every atom mapping and rotation", "why_tests_cant": "All symmetry operations.", "anchors": ["c/fc3.c:fc3_distribute_fc3", "phono3py/phonon3/fc3.py:distribute_fc3"]}
{"id": "C35", "title": "Symmetrising the collision matrix yields a symmetric matrix with unchanged diagonal and trace", "statement": "After symmetrisation the matrix is symmetric, equal to (M+M^T)/2, symmetric input is unchanged, and other temperature/sigma blocks are untouched.", "quantifier": "every size, number of temperatures and sigmas", "why_tests_cant": "In-place parallel update.", "anchors": ["c/phono3py.c:ph3py_symmetrize_collision_matrix", "phono3py/conductivity/direct_solution.py"]}
{"id": "C36", "title": "Expanding the collision matrix from irreducible points preserves symmetry-summed content", "statement": "Expanding rows from irreducible grid points to all grid points writes to the star of each irreducible point the rotated row, and rows of different stars do not interfere.", "quantifier": "every group action on grid points and set of irreducible representatives", "why_tests_cant": "All groups and meshes.", "anchors": ["c/phono3py.c:ph3py_expand_collision_matrix"]}
{"id": "C37", "title": "The pseudo-inverse cuts off eigenvalues by the documented rule", "statement": "The pseudo-inverse uses 1/lambda for eigenvalues above the cutoff (absolute or signed according to the method) and 0 otherwise; for a symmetric matrix given by an orthonormal eigen-decomposition the result satisfies the Penrose conditions restricted to kept modes.", "quantifier": "every spectrum, cutoff and method", "why_tests_cant": "All spectra.", "anchors": ["c/lapack_wrapper.c:pinv_from_eigensolution", "phono3py/conductivity/direct_solution.py:_get_eigvals_pinv"]}
{"id": "C38", "title": "Triplet lookup from a grid point finds the triplet that contains it and detects exchange", "statement": "The map from grid points to triplets used for the collision matrix returns, for every q1, the index of the triplet of its class, and reports exchange exactly when q1 reaches the representative only through the exchange.", "quantifier": "every triplet map pair produced by the triplet search", "why_tests_cant": "All meshes and groups.", "anchors": ["c/collision_matrix.c:create_gp2tp_map", "c/collision_matrix.c:get_inv_sinh", "phono3py/phonon3/collision_matrix.py"]}
{"id": "C39", "title": "Isotope scattering rates are non-negative", "statement": "Isotope linewidths are non-negative for every phonon mode, and vanish below the cutoff frequency or when all mass variances vanish.", "quantifier": "every frequency array, eigenvectors, non-negative mass variances and weights", "why_tests_cant": "All inputs.", "anchors": ["c/isotope.c:iso_get_isotope_scattering_strength", "c/isotope.c:iso_get_thm_isotope_scattering_strength"]}
{"id": "C40", "title": "Ph-ph interaction strengths are non-negative and vanish below the frequency cutoff", "statement": "Each interaction strength |V|^2 is non-negative, and is zero whenever one of the three frequencies is not above the cutoff.", "quantifier": "every fc3 in reciprocal space, eigenvectors and frequencies", "why_tests_cant": "All inputs.", "anchors": ["c/reciprocal_to_normal.c:reciprocal_to_normal_squared"]}
{"id": "C41", "title": "The conductivity iteration visits every grid point exactly once", "statement": "Iterating a conductivity object visits grid points 0..n-1 in order, once each, then stops; after the iteration restarting gives no further points unless re-initialised.", "quantifier": "every number of grid points, every interleaving of next calls", "why_tests_cant": "History property of an iterator.", "anchors": ["phono3py/conductivity/base.py:ConductivityBase.__next__"]}
{"id": "C42", "title": "The linewidth on the main diagonal is the sum of the enabled scattering channels", "statement": "The relaxation rate used for kappa is gamma plus isotope gamma if enabled plus boundary scattering if enabled, and nothing else; adding a channel never lowers the rate.", "quantifier": "every combination of channels and values", "why_tests_cant": "All combinations.", "anchors": ["phono3py/conductivity/base.py:_get_main_diagonal"]}
{"id": "C43", "title": "Cumulative conductivity ends at the total and grows with frequency for non-negative contributions", "statement": "The accumulated thermal conductivity at a frequency above all modes equals the total conductivity; it is non-decreasing when mode contributions are non-negative.", "quantifier": "every mode spectrum", "why_tests_cant": "All spectra.", "anchors": ["phono3py/other/kaccum.py:KappaDOSTHM", "phono3py/other/kaccum.py"]}
{"id": "C44", "title": "Interaction strengths written to file are read back unchanged", "statement": "Writing ph-ph interaction strengths with the compressed zero mask and reading them back reproduces every entry whose mask is unset, zero where the mask is set, and the mask itself, for every array size.", "quantifier": "every array length (including lengths not divisible by eight) and mask", "why_tests_cant": "Bit packing with a remainder byte; all sizes.", "anchors": ["phono3py/file_IO.py:write_pp_to_hdf5", "phono3py/file_IO.py:read_pp_from_hdf5"]}
{"id": "C45", "title": "FORCES_FC3 read after write gives each displaced supercell its own forces", "statement": "Writing forces for the displacement dataset and parsing the file with the same dataset attaches to every displacement exactly its forces; pairs excluded by the cutoff get zero forces and do not shift later ones; a truncated file is an error.", "quantifier": "every dataset shape, every pattern of included pairs, every force values", "why_tests_cant": "All datasets; alignment is a running counter.", "anchors": ["phono3py/file_IO.py:write_FORCES_FC3", "phono3py/file_IO.py:parse_FORCES_FC3", "phono3py/file_IO.py:_parse_force_lines"]}
{"id": "C46", "title": "FORCES_FC2 read after write is the identity on type-1 datasets and fails visibly otherwise", "statement": "Parsing a written FORCES_FC2 with the same dataset recovers the forces in order; a file with too few lines is reported as failure.", "quantifier": "every dataset", "why_tests_cant": "All datasets.", "anchors": ["phono3py/file_IO.py:write_FORCES_FC2", "phono3py/file_IO.py:parse_FORCES_FC2"]}
{"id": "C47", "title": "Output file names identify the calculation", "statement": "Calculations that differ in mesh, grid point, band indices, sigma, sigma cutoff or temperature write to different files.", "quantifier": "every pair of parameter settings", "why_tests_cant": "Injectivity over all settings.", "anchors": ["phono3py/file_IO.py:_get_filename_suffix", "phono3py/file_IO.py:_del_zeros"]}
{"id": "C48", "title": "Displacement ids are consecutive and unique, single displacements first", "statement": "Ids of displaced supercells run from 1 to the number of displacements without gaps; all first displacements come before all pair displacements; pairs outside the cutoff keep their id but are marked not included and get no supercell.", "quantifier": "every displacement direction dataset and cutoff", "why_tests_cant": "Running counters over nested lists.", "anchors": ["phono3py/phonon3/displacement_fc3.py:direction_to_displacement", "phono3py/cui/create_supercells.py:create_phono3py_supercells", "phono3py/api_phono3py.py:Phono3py._build_supercells_with_displacements"]}
{"id": "C49", "title": "Type-1 datasets convert to displacement-force arrays without mixing rows", "statement": "Converting a type-1 dataset to arrays gives one row per displaced supercell, the first-displacement rows before or interleaved as documented, each row holding the displacements actually applied to that supercell and its forces.", "quantifier": "every dataset, including pairs on the same atom and pairs excluded by cutoff", "why_tests_cant": "Nested running counters.", "anchors": ["phono3py/phonon3/dataset.py:get_displacements_and_forces_fc3", "phono3py/api_phono3py.py:Phono3py.displacements"]}
{"id": "C50", "title": "Setting forces and reading them back is the identity", "statement": "After assigning an array of supercell forces, the forces property returns the same array in the same order for both dataset types; a wrong number of supercells is rejected.", "quantifier": "every dataset and force array", "why_tests_cant": "All datasets.", "anchors": ["phono3py/api_phono3py.py:Phono3py.forces", "phono3py/api_phono3py.py:Phono3py.phonon_forces"]}
{"id": "C51", "title": "Changing the NAC direction never mixes Gamma-point phonons of different directions", "statement": "After any sequence of setting the NAC direction, setting the grid point and running, the phonons used at Gamma are those of the direction in force when Gamma is the selected grid point, and those without direction otherwise; an operation sequence that would violate this is rejected with an error and no valid sequence is rejected.", "quantifier": "every history of set-direction / set-grid-point / run operations", "why_tests_cant": "History property of cached state.", "anchors": ["phono3py/phonon3/interaction.py:Interaction.set_grid_point", "phono3py/phonon3/interaction.py:Interaction.run_phonon_solver_at_gamma"]}
{"id": "C52", "title": "Each phonon is solved once and cached results are never overwritten", "statement": "Requesting phonons at any sequence of grid points solves each point once, at its first request, whatever duplicates occur within or across requests, and never changes already computed values.", "quantifier": "every sequence of requests", "why_tests_cant": "History property.", "anchors": ["c/phonon.c:collect_undone_grid_points", "phono3py/phonon/solver.py:run_phonon_solver_c", "phono3py/phonon3/interaction.py:Interaction.run_phonon_solver"]}
{"id": "C53", "title": "Externally supplied phonons are accepted only for the same grid", "statement": "set_phonon_data raises unless the supplied grid addresses equal those of the interaction's BZ grid.", "quantifier": "every supplied address array", "why_tests_cant": "All arrays; the check aggregates over components.", "anchors": ["phono3py/phonon3/interaction.py:Interaction.set_phonon_data"]}
{"id": "C54", "title": "All temperatures given for joint DOS are written", "statement": "For every list of temperatures the joint-DOS writer produces one file per temperature.", "quantifier": "every list of temperatures", "why_tests_cant": "All list lengths.", "anchors": ["phono3py/file_IO.py:write_joint_dos"]}
{"id": "C55", "title": "Stored collision data is restored for every temperature", "statement": "Reading stored linewidths and collision matrices back, whether stored in one file, per grid point or per band, restores for each temperature the values computed at this temperature; a missing file makes the read fail cleanly.", "quantifier": "every number of temperatures, grid points and bands", "why_tests_cant": "All sizes; broadcasting hides errors when there is one temperature.", "anchors": ["phono3py/conductivity/utils.py:set_collision_from_file", "phono3py/conductivity/utils.py:_collect_collision_gp", "phono3py/conductivity/utils.py:_collect_collision_band", "phono3py/conductivity/utils.py:ConductivityLBTEWriter.write_collision"]}
{"id": "C56", "title": "Stored linewidths are restored for every sigma, grid point and band", "statement": "Linewidths written in one file, per grid point or per band are read back into the same positions, and reading succeeds only when all pieces are present.", "quantifier": "every number of sigmas, temperatures, grid points and bands", "why_tests_cant": "All sizes and sets of present files.", "anchors": ["phono3py/conductivity/utils.py:set_gamma_from_file", "phono3py/conductivity/utils.py:ConductivityRTAWriter.write_gamma"]}
{"id": "C57", "title": "The smearing-width setting accepts numbers and None in any order", "statement": "Assigning sigmas stores one entry per valid element in order, None meaning the tetrahedron method; a scalar and a one-element list are equivalent.", "quantifier": "every list of optional numbers", "why_tests_cant": "All lists.", "anchors": ["phono3py/api_phono3py.py:Phono3py.sigmas"]}
{"id": "C58", "title": "Equivalent-pair bookkeeping of third-order displacements covers every second atom", "statement": "For each first displacement, the second atoms listed are exactly one representative per orbit of the reduced site symmetry, and every atom in the supercell belongs to the orbit of a listed representative.", "quantifier": "every permutation group acting on atoms", "why_tests_cant": "All symmetry groups.", "anchors": ["phono3py/phonon3/displacement_fc3.py:_get_orbits", "phono3py/phonon3/displacement_fc3.py:get_least_orbits"]}
{"id": "C59", "title": "The BZ-grid arrays are large enough", "statement": "The Python caller allocates eight rows per regular grid point for the BZ-grid addresses and the BZ-to-regular map; BZ-grid generation never produces more BZ points than that, so it never writes out of bounds.", "quantifier": "every mesh, reciprocal lattice and layout", "why_tests_cant": "The number of images depends on the anisotropy of the lattice relative to the tolerance; tests only use a few near-isotropic crystals.", "anchors": ["phono3py/phonon/grid.py:_relocate_BZ_grid_address", "c/bzgrid.c:get_bz_grid_addresses_type1", "c/bzgrid.c:get_bz_grid_addresses_type2", "c/recgrid.c:recgrid_get_tolerance_for_BZ_reduction"]}
{"id": "C61", "title": "Symmetrised interaction strengths are the average over the six permutations of the triplet", "statement": "When symmetrisation of the interaction over the three phonons is requested, the reported strength for three modes is the arithmetic mean of the unsymmetrised strengths over the six orderings of the triplet, so permuting the three modes leaves it unchanged; the result never depends on the prior content of memory.", "quantifier": "every crystal, force constants, eigenvectors, triplet, band combination, and every content of the scratch buffer", "why_tests_cant": "A scratch buffer from malloc is usually zero in a fresh test process; only a statement over all its contents shows whether unwritten places are read.", "anchors": ["c/interaction.c:real_to_normal_sym_q", "c/interaction.c:itr_get_interaction_at_triplet", "phono3py/phonon3/interaction.py:Interaction._run_c"]}
{"id": "C62", "title": "Interaction strengths do not depend on the arbitrary phase or basis of the eigenvectors", "statement": "Multiplying each eigenvector by its own phase factor changes no interaction strength; replacing the eigenvectors of a degenerate set by a unitary mixture leaves the sum of the strengths over that set unchanged.", "quantifier": "every crystal, triplet, band combination, phase choice and unitary mixture", "why_tests_cant": "An eigensolver returns one choice of phases and basis; tests see only that choice.", "anchors": ["c/reciprocal_to_normal.c:reciprocal_to_normal_squared", "phono3py/phonon3/interaction.py:Interaction.run"]}
{"id": "C63", "title": "A triplet and its time reversal have equal interaction strengths", "statement": "For q -> -q at all three members, with conjugate eigenvectors and equal frequencies, the interaction strengths are equal.", "quantifier": "every crystal, force constants, triplet and band combination", "why_tests_cant": "It concerns all triplets and all eigenvectors; sample triplets do not show it for others.", "anchors": ["c/real_to_reciprocal.c:r2r_real_to_reciprocal", "c/interaction.c:itr_get_interaction_at_triplet"]}
{"id": "C64", "title": "Compact and full force constants give the same interaction strengths", "statement": "Running with fc3 in compact format and with the full fc3 whose rows of primitive atoms are the same numbers gives identical interaction strengths.", "quantifier": "every crystal, force constants, triplet and band combination", "why_tests_cant": "The two storage formats are indexed by different code paths; equality has to hold for all cells and index maps.", "anchors": ["c/real_to_reciprocal.c:real_to_reciprocal_elements", "phono3py/phonon3/interaction.py:Interaction"]}
{"id": "C65", "title": "Averaging over the choice of the first atom changes nothing when all distances are shortest", "statement": "If for every triple of atoms the three distances are the shortest ones, the interaction strengths with and without make_r0_average are equal.", "quantifier": "every crystal with that property, all triplets and bands", "why_tests_cant": "The equality rests on the bookkeeping of three legs with factors 3 and 0; a numerical test covers a few cells only.", "anchors": ["c/real_to_reciprocal.c:real_to_reciprocal_r0_average", "phono3py/phonon3/interaction.py:Interaction._get_all_shortest"]}
{"id": "C66", "title": "Interaction strengths are symmetric under exchange of the second and third phonon", "statement": "If fc3 is symmetric under exchange of its second and third index, exchanging the second and third member of a triplet together with their bands leaves the strength unchanged. Reducing triplets by q1-q2 exchange relies on this.", "quantifier": "every crystal, fc3 with that symmetry, triplet, band combination, with or without make_r0_average", "why_tests_cant": "The reduced triplet list contains only one of the two orderings, so tests never compare them.", "anchors": ["c/real_to_reciprocal.c:r2r_real_to_reciprocal", "c/reciprocal_to_normal.c:reciprocal_to_normal_squared", "c/triplet_grid.c"]}
{"id": "C67", "title": "Reciprocal-space force constants are the lattice Fourier sums over the second and third atom", "statement": "Each element of the reciprocal-space fc3 is the sum over the supercell atoms equivalent to the second and third atom of fc3 times the phase factors averaged over shortest vectors, times the phase of the first atom at q0+q1+q2.", "quantifier": "every cell, index map, multiplicity table, fc3, triplet of wave vectors and element", "why_tests_cant": "Tests compare sums over bands with stored numbers for a few crystals.", "anchors": ["c/real_to_reciprocal.c:real_to_reciprocal_legacy", "c/real_to_reciprocal.c:real_to_reciprocal_elements", "c/real_to_reciprocal.c:get_phase_factor"]}
{"id": "C68", "title": "Linewidths computed on the fly equal those from stored interaction strengths", "statement": "The memory-saving calculation, which evaluates weights, strengths and linewidths triplet by triplet, gives for every temperature and selected band the weighted sum over triplets and band pairs of occupation factors, integration weights and interaction strengths, that is, the same linewidth as storing all strengths first; its normal and Umklapp parts add up to the total. This holds with and without symmetrised strengths.", "quantifier": "every crystal, list of triplets and weights, temperatures, selected bands, method (tetrahedron or smearing), and every content of uninitialised buffers", "why_tests_cant": "Tests compare a few numbers for one crystal; buffers are zero in practice, and the two paths use different array layouts that must agree for all sizes.", "anchors": ["c/pp_collision.c:ppc_get_pp_collision", "c/pp_collision.c:ppc_get_pp_collision_with_sigma", "c/pp_collision.c:finalize_ise", "phono3py/conductivity/rta.py"]}
{"id": "C69", "title": "The two scattering classes partition the linewidth", "statement": "Restricting the imaginary self-energy to scattering class 1 and to class 2 gives two contributions that add up to the unrestricted self-energy, at band frequencies and at sampled frequencies; at zero temperature class 1 contributes nothing.", "quantifier": "all weights with sound flags, strengths, triplets, temperatures, band subsets and frequency points", "why_tests_cant": "a linear identity over all weight arrays, sizes and band selections; a test compares a few crystals to stored numbers", "anchors": ["phono3py/phonon3/imag_self_energy.py:ImagSelfEnergy.run_integration_weights", "c/imag_self_energy_with_g.c:ise_get_imag_self_energy_with_g"]}
{"id": "C70", "title": "The Python and the C implementation of the linewidth agree", "statement": "The pure-Python linewidth at band frequencies equals the C result for all inputs whose flagged weights are zero and, at zero temperature, whose strengths vanish for modes at or below the cutoff.", "quantifier": "all sizes, weights, strengths, occupations, temperatures and cutoffs", "why_tests_cant": "equality of two programs for all inputs; tests compare single crystals within a tolerance", "anchors": ["phono3py/phonon3/imag_self_energy.py:ImagSelfEnergy._ise_thm_with_band_indices", "phono3py/phonon3/imag_self_energy.py:ImagSelfEnergy._ise_thm_with_band_indices_0K", "c/imag_self_energy_with_g.c"]}
{"id": "C60", "title": "Tetrahedron vertices are the neighbouring grid points and conserve momentum", "statement": "For any grid point and relative address, the neighbouring grid point used as a tetrahedron vertex is a valid BZ-grid index whose address equals the address of the point plus the relative address up to a reciprocal lattice vector, and it is that very image whenever that image is stored. For phonon triplets the vertices around q' are offset by the relative address and those around q'' by its negative, so that q + q' + q'' stays a reciprocal lattice vector at every vertex.", "quantifier": "every mesh, lattice, layout, triplet, relative address and tetrahedron", "why_tests_cant": "The lookup depends on which images of each point the lattice puts on the zone boundary; a wrong image or a violated momentum sum changes integration weights silently for some lattices only.", "anchors": ["c/triplet_iw.c:tpi_get_neighboring_grid_points", "c/triplet_iw.c:get_neighboring_grid_points_type1", "c/triplet_iw.c:get_neighboring_grid_points_type2", "c/triplet_iw.c:get_triplet_tetrahedra_vertices", "c/triplet_iw.c:tpi_get_integration_weight"]}
{"id": "C71", "title": "Symmetrising fc3 with cutoff pairs uses exactly the computed elements", "statement": "When fc3 is built with a cutoff pair distance, every element becomes the average of those of its six permuted counterparts that were computed, and zero if none was; the result is permutation symmetric, applying it again changes nothing, and if the computed elements come from symmetric force constants every element with a computed counterpart is exact.", "quantifier": "every number of atoms, every set of computed pairs, every fc3 array (exact arithmetic)", "why_tests_cant": "In-place update over all atom triples and all flag patterns.", "anchors": ["phono3py/phonon3/fc3.py:_cutoff_fc3_for_cutoff_pairs", "phono3py/phonon3/fc3.py:_set_permutation_symmetry_fc3_elem_with_cutoff"]}
{"id": "C72", "title": "Cutting fc3 by distance zeroes exactly the elements beyond the cutoff", "statement": "cutoff_fc3_by_zero sets an element to zero exactly if two of its three atoms are farther apart than the cutoff and keeps all others, for full and compact arrays; permutation symmetry is kept; wrong shapes are rejected.", "quantifier": "every array, distance table and cutoff", "why_tests_cant": "All arrays, atom triples and cutoffs.", "anchors": ["phono3py/phonon3/fc3.py:cutoff_fc3_by_zero"]}
{"id": "C73", "title": "fc3 computed from displacements reproduces harmonic changes exactly", "statement": "If the changes of fc2 in the dataset are those induced by some fc3 invariant under the crystal symmetry, the computed fc3 (full or compact) equals that fc3 at every element.", "quantifier": "every crystal symmetry, displacement set whose rotated displacements span space, every invariant fc3 (exact arithmetic)", "why_tests_cant": "Ranges over all crystals, datasets and force constants.", "anchors": ["phono3py/phonon3/fc3.py:get_fc3", "phono3py/phonon3/fc3.py:_solve_fc3", "c/fc3.c:fc3_rotate_delta_fc2", "c/fc3.c:fc3_distribute_fc3"]}
{"id": "C74", "title": "Computed pairs are all symmetry images of the pairs in the dataset", "statement": "With a cutoff, a pair of atoms counts as computed exactly if a symmetry operation of the crystal maps an included displacement pair of the dataset onto it.", "quantifier": "every group of symmetry operations and every dataset", "why_tests_cant": "All symmetry groups and datasets; intermediate results are overwritten in a loop.", "anchors": ["phono3py/phonon3/fc3.py:_get_fc3_done"]}
{"id": "C75", "title": "Elements of the collision matrix are the documented band sums and the irreducible matrix is their rotation sum", "statement": "Each element of the reducible collision matrix between (q, band j) and (q', band k) is the sum over the bands of the third phonon of interaction strength times integration weight times the occupation factor of the partner, 0 at or below the cutoff frequency, with the band axes exchanged when the lookup reports exchange. The irreducible matrix is the sum over point-group operations of the reducible element at the rotated point times the Cartesian rotation. Elements are non-negative contributions and do not depend on thread schedule or uninitialised memory.", "quantifier": "every grid, number of bands, set of operations, element, schedule and memory content", "why_tests_cant": "Index arithmetic has to be right for all sizes and all elements; schedules are unbounded.", "anchors": ["c/collision_matrix.c:get_collision_matrix", "c/collision_matrix.c:get_reducible_collision_matrix", "c/collision_matrix.c:get_inv_sinh"]}
{"id": "C76", "title": "Averaging over degenerate bands makes the collision matrix constant on degenerate blocks", "statement": "After the degeneracy average every element between degenerate bands is the mean of its block, block sums are preserved, matrices already constant on blocks are unchanged, and this holds in the irreducible and in the reducible layout.", "quantifier": "every matrix, every assignment of degenerate sets to grid points", "why_tests_cant": "All matrices and all degeneracy patterns.", "anchors": ["phono3py/conductivity/direct_solution.py:_average_collision_matrix_by_degeneracy"]}
{"id": "C77", "title": "The symmetry-reduced collision matrix is equivalent to the full one on symmetric fields", "statement": "For vector fields with the symmetry of the crystal, the irreducible collision matrix with main diagonal and weights sqrt(arms of star / order of group) acts at irreducible points exactly like the full collision matrix with main diagonal, so both give the same solution of the linearised Boltzmann equation.", "quantifier": "every finite point group acting on the grid, every matrix, every symmetric field", "why_tests_cant": "All groups, meshes and fields.", "anchors": ["phono3py/conductivity/direct_solution.py:_combine_collisions", "phono3py/conductivity/direct_solution.py:_get_weights", "phono3py/conductivity/direct_solution.py:_multiply_weights_to_collisions"]}
{"id": "C78", "title": "The number of sampling grid points is the number of points of the mesh", "statement": "After a conductivity object has visited all its irreducible grid points, the number of sampling grid points by which kappa is divided equals the number of grid points of the full mesh, whatever calls were made; the multiplicity of a q-point is the number of point operations that leave it unchanged up to a reciprocal lattice vector.", "quantifier": "every point group, mesh, set of irreducible points and history of next calls, failed ones included", "why_tests_cant": "History property and all groups and meshes.", "anchors": ["phono3py/conductivity/base.py:ConductivityBase.__next__", "phono3py/conductivity/base.py:ConductivityBase._get_multiplicity_at_q", "phono3py/conductivity/base.py:ConductivityBase._get_kstar_order"]}
{"id": "C79", "title": "Computing kappa again from the same linewidths gives the same result", "statement": "Calling set_kappa_at_sigmas repeatedly does not change kappa, the mode contributions or the number of ignored modes.", "quantifier": "every input and number of calls", "why_tests_cant": "History property.", "anchors": ["phono3py/conductivity/rta.py:ConductivityRTA.set_kappa_at_sigmas", "phono3py/conductivity/rta.py:ConductivityWignerRTA.set_kappa_at_sigmas"]}
{"id": "C80", "title": "The conductivity tensor is positive semidefinite and falls with stronger scattering", "statement": "For non-negative linewidths and heat capacities the RTA conductivity is non-negative in every direction; raising linewidths never raises it.", "quantifier": "every set of velocities, heat capacities, linewidths and directions", "why_tests_cant": "All inputs and directions.", "anchors": ["phono3py/conductivity/rta.py:ConductivityRTA.set_kappa_at_sigmas", "phono3py/conductivity/base.py:GroupVelocityMixIn._get_gv_by_gv"]}
{"id": "C81", "title": "The conductivity tensor has the symmetry of the crystal", "statement": "The RTA conductivity tensor is unchanged by every operation of the point group.", "quantifier": "every finite group of operations and every set of mode properties", "why_tests_cant": "All groups and mode properties.", "anchors": ["phono3py/conductivity/base.py:GroupVelocityMixIn._get_gv_by_gv", "phono3py/conductivity/rta.py:ConductivityRTA.set_kappa_at_sigmas"]}
{"id": "C82", "title": "Using the symmetry of the crystal does not change kappa", "statement": "kappa computed from irreducible grid points with star weights equals the sum over the full mesh divided by its number of points.", "quantifier": "every group, mesh, set of irreducible points and symmetric mode properties", "why_tests_cant": "All groups and meshes.", "anchors": ["phono3py/conductivity/base.py:GroupVelocityMixIn._set_gv_by_gv", "phono3py/conductivity/rta.py:ConductivityRTA.set_kappa_at_sigmas"]}
{"id": "C83", "title": "Wigner and Green-Kubo conductivities extend the relaxation time approximation", "statement": "Populations and coherences parts of the Wigner conductivity together contain every pair of bands above the cutoff exactly once; for bands without degeneracy the populations part, and the diagonal of the Green-Kubo contributions, equal the RTA contributions.", "quantifier": "every spectrum, cutoff and set of mode properties", "why_tests_cant": "All spectra.", "anchors": ["phono3py/conductivity/rta.py:ConductivityWignerRTA.set_kappa_at_sigmas", "phono3py/conductivity/rta.py:ConductivityKuboRTA._set_kappa_at_sigmas"]}
{"id": "C84", "title": "The linewidth spectrum uses the smearing width the user gives", "statement": "The smeared spectrum of linewidths at a sampling frequency is the mean over all points of the mesh of the linewidths smeared with the requested width; the default width is one hundredth of the sampled range.", "quantifier": "every smearing function, spectrum, set of weights, width and number of sampling points", "why_tests_cant": "All spectra and widths.", "anchors": ["phono3py/other/kaccum.py:GammaDOSsmearing"]}
{"id": "C85", "title": "Supercells reported as duplicates are identical", "statement": "In the generated displacement dataset every reported pair of duplicated ids denotes two supercells with the same displacements of all atoms, and an id reported as a duplicate of 0 denotes a supercell without displacement.", "quantifier": "every displacement direction dataset", "why_tests_cant": "Depends on which directions occur for which atoms; needs all combinations of first and second displacements.", "anchors": ["phono3py/phonon3/displacement_fc3.py:_find_duplicates", "phono3py/phonon3/displacement_fc3.py:_compare", "phono3py/phonon3/displacement_fc3.py:_compare_opposite", "phono3py/phonon3/displacement_fc3.py:direction_to_displacement"]}
{"id": "C86", "title": "Phonon eigenproblems are Hermitian", "statement": "The dynamical matrix handed to the eigenvalue solver is Hermitian, with no correction for long-range forces, with the correction of Wang and with that of Gonze and Lee; without correction and with that of Wang it is the Hermitian part of the mass-weighted lattice Fourier transform of the force constants.", "quantifier": "every set of force constants (symmetric or not), wave vector, direction, charges and previous content of the memory", "why_tests_cant": "Must hold for all force constants, in particular those that violate the index symmetry.", "anchors": ["c/dynmat.c:dym_get_dynamical_matrix_at_q", "c/dynmat.c:make_Hermitian", "c/dynmat.c:dym_get_recip_dipole_dipole", "c/phonon.c:get_dynamical_matrix", "c/phonon.c:get_gonze_phonons"]}
{"id": "C87", "title": "q and -q have the same frequencies", "statement": "The dynamical matrix of -q is the complex conjugate of that of q; hence both have the same squared frequencies with complex conjugate displacements.", "quantifier": "every set of force constants, wave vector, direction and charges; for Gonze-Lee every list of reciprocal-lattice points closed under negation", "why_tests_cant": "All wave vectors and crystals.", "anchors": ["c/dynmat.c:get_dm", "c/dynmat.c:get_dd", "c/phonon.c:get_charge_sum"]}
{"id": "C88", "title": "Rigid translations cost no energy", "statement": "When the force constants have no drift, the three rigid translations are solutions with frequency zero at the zone centre, also along a direction with the non-analytical correction when the charges add up to zero.", "quantifier": "every crystal, set of masses and force constants without drift, direction and neutral charges", "why_tests_cant": "All crystals and force constants.", "anchors": ["c/dynmat.c:dym_get_dynamical_matrix_at_q", "c/dynmat.c:dym_get_charge_sum", "c/dynmat.c:dym_get_recip_dipole_dipole_q0", "c/phonon.c:get_gonze_phonons"]}
{"id": "C89", "title": "Equivalent wave vectors have the same frequencies", "statement": "Without long-range correction, adding a reciprocal-lattice vector to q leaves the squared frequencies as they are and multiplies the displacement of each atom by a phase given by its position.", "quantifier": "every set of force constants, wave vector and reciprocal-lattice vector", "why_tests_cant": "All wave vectors and crystals.", "anchors": ["c/dynmat.c:get_dm", "c/dynmat.c:get_dynmat_ij"]}
{"id": "C90", "title": "The non-analytical correction depends on the direction only", "statement": "Multiplying the direction of approach by any non-zero number leaves the dynamical matrix as it is, for both corrections; away from the zone centre the correction of Wang without a direction is that along q.", "quantifier": "every direction, factor, wave vector and set of charges", "why_tests_cant": "All directions and scale factors.", "anchors": ["c/phonon.c:get_charge_sum", "c/dynmat.c:get_dd"]}
{"id": "C91", "title": "Frequencies are signed square roots of the eigenvalues", "statement": "Each frequency has the sign of its eigenvalue, its square is the eigenvalue up to sign in the chosen unit, and frequencies are ordered as the eigenvalues.", "quantifier": "every pair of eigenvalues and positive unit factor", "why_tests_cant": "All eigenvalues, including zero and negative ones.", "anchors": ["c/phonon.c:get_undone_phonons", "c/phonon.c:get_gonze_undone_phonons"]}
{"id": "C92", "title": "Full and compact second-order force constants give the same phonons", "statement": "When the compact force constants are the rows of the full ones that belong to the atoms of the primitive cell, both give the same dynamical matrix.", "quantifier": "every pair of such arrays, wave vector, direction and charges", "why_tests_cant": "All crystals and atom orders.", "anchors": ["phono3py/phonon/solver.py:_get_fc_elements_mapping", "c/dynmat.c:get_dm"]}
{"id": "C93", "title": "Frequency shifts follow the formula of perturbation theory", "statement": "The real part of the bubble self-energy is the sum over triplets (with weights) and pairs of bands above the cutoff of the interaction strength times (n1+n2+1) times the difference of the principal parts at the sum frequency and (n1-n2) times that at the difference frequencies, at the band frequencies and at given frequencies alike; the compiled and the Python implementations agree.", "quantifier": "every set of triplets, weights, frequencies, interaction strengths, temperature, smearing width and band", "why_tests_cant": "All interaction strengths, spectra and temperatures.", "anchors": ["c/real_self_energy.c:rse_get_real_self_energy_at_bands", "c/real_self_energy.c:rse_get_real_self_energy_at_frequency_point", "phono3py/phonon3/real_self_energy.py:RealSelfEnergy"]}
{"id": "C94", "title": "The smearing width changes the shift in a controlled way", "statement": "The smeared principal part never exceeds the inverse of twice the width, and away from resonances the difference to the exact principal part is bounded by the square of the width over the cube of the distance.", "quantifier": "every spectrum, width, frequency", "why_tests_cant": "All spectra and widths.", "anchors": ["c/real_self_energy.c:sum_real_self_energy_at_band", "phono3py/phonon3/real_self_energy.py:RealSelfEnergy"]}
{"id": "C95", "title": "Symmetry and sign of frequency shifts", "statement": "Exchanging the two partner phonons leaves the shift unchanged; at zero temperature a mode below all two-phonon energies is shifted downwards; with zero occupations the thermal formula equals the zero-temperature one.", "quantifier": "every set of triplets and interaction strengths", "why_tests_cant": "All interaction strengths and spectra.", "anchors": ["c/real_self_energy.c:sum_real_self_energy_at_band", "c/real_self_energy.c:sum_real_self_energy_at_band_0K"]}
{"id": "C96", "title": "Each entry of the array of frequency shifts belongs to its own settings", "statement": "The entry for a smearing width, temperature, grid point, band (and frequency) in the result of a run over many of them equals the shift calculated alone for these settings.", "quantifier": "every list of widths, temperatures, grid points, bands and frequency points", "why_tests_cant": "All combinations and orders of settings.", "anchors": ["phono3py/phonon3/real_self_energy.py:get_real_self_energy"]}
{"id": "C97", "title": "Shifts from the Kramers-Kronig relation", "statement": "On equally spaced frequency points starting at zero the shift returned with the spectral function is the discrete Kramers-Kronig transform of the linewidths, continued as an odd function; points that do not start at zero or are not equally spaced are refused; the points generated by the program are accepted.", "quantifier": "every list of linewidths and frequency points", "why_tests_cant": "All linewidths and spacings.", "anchors": ["phono3py/phonon3/real_self_energy.py:imag_to_real", "phono3py/phonon3/spectral_function.py:SpectralFunction"]}
{"id": "C98", "title": "Spectral functions are imaginary parts of the phonon propagator", "statement": "The spectral function is the imaginary part of the propagator with the given linewidth and shift, is not negative, is bounded by the inverse linewidth, reaches this bound at the shifted resonance and vanishes without linewidth.", "quantifier": "every frequency, linewidth and shift", "why_tests_cant": "All real values, including poles of the denominator.", "anchors": ["phono3py/phonon3/spectral_function.py:SpectralFunction._get_spectral_function"]}
{"id": "C99", "title": "Spectral function files hold the values of the bands they name", "statement": "A run over grid points, sigmas, temperatures and band groups writes for each group the average over its bands in a text file naming the group, and an hdf5 file with the values of all bands naming these bands; it finishes for every choice of output and logging; and the user's string is part of the file name.", "quantifier": "every list of groups, grid points, sigmas and temperatures, every choice of outputs", "why_tests_cant": "All combinations of options.", "anchors": ["phono3py/phonon3/spectral_function.py:run_spectral_function", "phono3py/file_IO.py:write_real_self_energy_to_hdf5"]}
{"id": "C100", "title": "The generated frequency axis covers all two-phonon processes", "statement": "Without given points, the axis starts at zero and every sum of two phonon frequencies, plus four smearing widths, lies between two neighbouring points, with the requested number of points or the requested step; given points are used as they are.", "quantifier": "every highest frequency, list of smearing widths, number of points and step", "why_tests_cant": "All spectra, widths and steps.", "anchors": ["phono3py/phonon3/imag_self_energy.py:get_frequency_points"]}
{"id": "C101", "title": "Mode Grueneisen tensors are strain derivatives of squared frequencies", "statement": "For any force constants, wave vector and polar correction without dipole-dipole sums, and for a mode with a non-zero eigenvalue omega^2 and normalised eigenvector e (other than the three lowest at the zone centre), deform the crystal by t*epsilon, moving atoms as the calculation says and changing the second-order force constants by the contraction of the third-order ones with those displacements: then e^dagger D e changes from omega^2 to exactly omega^2 (1 - 2 t sum_kl gamma_kl epsilon_kl), where gamma is the reported tensor. Within 1e-5 of the zone centre the parameters of the three lowest eigenvalues are zero.", "quantifier": "all crystals, force constants, wave vectors, modes, strains and amplitudes", "why_tests_cant": "Tests compare numbers of a crystal or two; that the tensor is the derivative for every strain and every crystal is an algebraic identity over all inputs.", "anchors": ["phono3py/phonon3/gruneisen.py: Gruneisen._get_gruneisen_tensor, _get_dDdu, _get_dPhidu, _get_Y, _get_R", "phonopy dynamical matrix (c/dynmat.c)"]}
{"id": "C102", "title": "Internal relaxation under strain puts the atoms at rest", "statement": "With force constants that are symmetric and obey the acoustic sum rule and a stable or unstable crystal with exactly three zero eigenvalues at the zone centre coming first, the internal displacements used for relaxed ions leave on every atom its mass share of the total force on the cell, hence no force at all if a homogeneous strain causes no total force. With clamped ions the atoms follow the strain.", "quantifier": "all crystals, force constants, strains and atoms", "why_tests_cant": "The equilibrium is a pseudo-inverse identity, which a finite number of crystals cannot establish.", "anchors": ["phono3py/phonon3/gruneisen.py: Gruneisen._get_X, _get_Gamma, __init__"]}
{"id": "C103", "title": "What mode Grueneisen parameters do not depend on", "statement": "Mode Grueneisen tensors do not change when all atoms are moved rigidly with the strain (if the third-order constants have no drift), when an eigenvector is multiplied by a phase factor, or when the wave vector is reversed; the sum over modes of equal frequency does not depend on the eigenvectors chosen. Single parameters of modes of equal frequency do.", "quantifier": "all crystals, wave vectors, modes and choices of eigenvectors", "why_tests_cant": "The invariances range over all continuous phases and unitary mixtures of eigenvectors, which depend on the LAPACK version used.", "anchors": ["phono3py/phonon3/gruneisen.py: Gruneisen._get_gruneisen_tensor, _get_dDdu"]}
{"id": "C104", "title": "Files of mode Grueneisen parameters hold what was computed for the wave vectors listed", "statement": "After wave vectors, a mesh or paths were set and run on an object, whatever was set or run on it before, the file written lists every wave vector in order with the result computed there, with the multiplicities for a mesh and the length of the path so far for paths; the polar correction is taken along the wave vector, at the zone centre along the given direction or, on a path, along the path. Nothing is written before the first run.", "quantifier": "all histories of calls on the object, all lists of wave vectors, meshes and paths", "why_tests_cant": "Tests run one mode on a new object; what is left over from earlier calls depends on the history.", "anchors": ["phono3py/phonon3/gruneisen.py: Gruneisen.run, set_qpoints, set_sampling_mesh, set_band_structure, write, _calculate_at_qpoints, _write_mesh_yaml, _write_band_yaml, _write_mesh_hdf5"]}
{"id": "C105", "title": "Velocity operators are Hermitian finite differences of the square root of the dynamical matrix", "statement": "The velocity operator of the Wigner transport equation at a wave vector is the central difference of the square root of the dynamical matrix in the basis of phonon modes. It is Hermitian, its diagonal elements of non-degenerate modes with unchanged polarisation are the finite-difference group velocities, it changes to minus its complex conjugate when the wave vector is reversed, and it does not depend on the eigenvectors chosen at the displaced wave vectors. Sums over a set of degenerate bands of its products do not depend on the eigenvectors chosen at the wave vector. The velocity products averaged over the star of the wave vector form a tensor with the symmetry of the point group and have non-negative diagonal elements.", "quantifier": "all dynamical matrices, wave vectors, step lengths, eigensolvers and crystal symmetries", "why_tests_cant": "Tests compare conductivities of two crystals; the freedom of the eigensolver and of the symmetry is not sampled.", "anchors": ["phono3py/phonon/velocity_operator.py: VelocityOperator._calculate_velocity_operator_at_q, _get_dsqrtdm_dq, _delta_dynamical_matrix", "phono3py/conductivity/wigner.py: ConductivityWignerComponents._set_gv_operator, _set_gv_by_gv_operator"]}
{"id": "C106", "title": "Group velocity matrices are Hermitian and respect the site symmetry of the wave vector", "statement": "The group velocity matrix at a wave vector, from which the Green-Kubo conductivity is calculated, is the derivative of the dynamical matrix between pairs of modes over the root of twice the product of frequencies; its diagonal elements are the group velocities; it is Hermitian before and after symmetrisation; and symmetrisation leaves a matrix that already has the symmetry of the wave vector unchanged. Squares of elements are non-negative and do not depend on phases of eigenvectors.", "quantifier": "all dynamical matrices, wave vectors and site symmetries", "why_tests_cant": "Symmetrisation is only exercised for symmetries present in the test crystal.", "anchors": ["phono3py/phonon/group_velocity_matrix.py: GroupVelocityMatrix._calculate_group_velocity_matrix_at_q, _symmetrize_group_velocity_matrix", "phono3py/conductivity/kubo.py: ConductivityKuboMixIn._get_gvm_by_gvm"]}
{"id": "C107", "title": "The heat capacity matrix generalises the mode heat capacity", "statement": "The heat capacity matrix of a wave vector is symmetric and positive, its diagonal holds the mode heat capacities, and elements between two modes tend to the mode heat capacity when the frequencies approach each other.", "quantifier": "all frequencies and temperatures", "why_tests_cant": "Close and equal frequencies use a separate branch, chosen by a cutoff.", "anchors": ["phono3py/phonon/heat_capacity_matrix.py: mode_cv_matrix"]}
{"id": "C108", "title": "Inside the direct solution the relaxation time approximation is the one of an ordinary run", "statement": "The relaxation-time conductivity that the direct solution reports beside its result, in the irreducible layout, equals the conductivity of an ordinary relaxation-time calculation with the same frequencies, velocities, linewidths and heat capacities; the weights it uses are roots of star sizes over the order of the point group, and the heat capacity hidden in its vectors is the heat capacity of the mode.", "quantifier": "all crystals, meshes, temperatures, frequencies, velocities, linewidths", "why_tests_cant": "Tests compare a few numbers of one crystal to a tolerance.", "anchors": ["phono3py/conductivity/direct_solution.py: ConductivityLBTEBase._set_kappa_RTA_ir_colmat, _get_X, _get_weights, _set_mode_kappa", "phono3py/conductivity/rta.py: ConductivityRTA"]}
{"id": "C109", "title": "Both layouts of the collision matrix give the same conductivity", "statement": "For a crystal and scattering with the symmetry of the crystal, the direct solution gives the same conductivity whether the collision matrix is stored for irreducible points or for the full mesh, whatever the solvers, and both equal the solution of the full linear system on the mesh.", "quantifier": "all groups, meshes, numbers of bands, collision elements with the symmetry of the crystal, solvers, cutoffs", "why_tests_cant": "Tests compare the two layouts for two crystals to a loose tolerance.", "anchors": ["phono3py/conductivity/direct_solution.py: ConductivityLBTEBase._prepare_collision_matrix, _combine_collisions, _combine_reducible_collisions, _multiply_weights_to_collisions, _average_collision_matrix_by_degeneracy, _symmetrize_collision_matrix, _expand_reducible_collisions, _set_kappa_ir_colmat, _set_kappa_reducible_colmat"]}
{"id": "C110", "title": "The conductivity of the direct solution is a symmetric tensor of the crystal and positive", "statement": "The conductivity tensor of the direct solution has the symmetry of the point group. It is positive semi-definite when no negative eigenvalue of the collision matrix is kept.", "quantifier": "all groups, collision matrices, vectors, directions", "why_tests_cant": "Tests fix a handful of crystals in standard orientation.", "anchors": ["phono3py/conductivity/direct_solution.py: ConductivityLBTEBase._set_mode_kappa, _set_kappa_ir_colmat, _set_kappa_reducible_colmat"]}
{"id": "C111", "title": "All solvers of the direct solution invert the same operator", "statement": "Whatever solver is selected, the direct solution applies the pseudo-inverse with eigenvalues at or below the cutoff removed; results do not depend on the eigenvectors chosen for degenerate eigenvalues; when no eigenvalue is removed the vector solves the linear system.", "quantifier": "all symmetric matrices, vectors, cutoffs, solvers, choices of eigenvectors", "why_tests_cant": "Tests run the solvers that are installed on one matrix.", "anchors": ["phono3py/conductivity/direct_solution.py: select_colmat_solver, diagonalize_collision_matrix, ConductivityLBTEBase._get_Y, _get_eigvals_pinv"]}
{"id": "C112", "title": "Mean free paths reproduce the mode conductivities", "statement": "The mean free path vectors returned by the direct solution reproduce, with the velocity and heat capacity of each mode, the mode conductivity that was returned; with a diagonal collision matrix they are velocity times lifetime with reversed sign.", "quantifier": "all modes above the cutoff, temperatures, collision matrices", "why_tests_cant": "Mean free paths are not tested at all; a wrong factor leaves the conductivity unchanged.", "anchors": ["phono3py/conductivity/direct_solution.py: ConductivityLBTEBase._set_f_vectors, _set_mean_free_path, _set_mode_kappa_from_mfp, get_mean_free_path"]}
{"id": "C113", "title": "Collective phonons add up to the conductivity", "statement": "With the option for collective phonons the mode conductivities add up to the same conductivity as without it.", "quantifier": "all collision matrices, rotations, vectors", "why_tests_cant": "The option is not tested; it changes the total only when the collision matrix does not commute with the rotation sums.", "anchors": ["phono3py/conductivity/direct_solution.py: ConductivityLBTEBase._set_mode_kappa_Chaput, _get_I"]}
{"id": "C114", "title": "Evaluating the direct solution depends on the collision matrix alone", "statement": "The conductivity of an evaluation is determined by the collision matrix at that time and not by earlier results; at zero temperature nothing is changed; evaluating again gives the same result.", "quantifier": "all earlier states and settings", "why_tests_cant": "Tests evaluate once.", "anchors": ["phono3py/conductivity/direct_solution.py: ConductivityLBTE._set_kappa_at_sigmas, ConductivityLBTEBase.set_kappa_at_sigmas"]}
{"id": "C115", "title": "Niggli reduction returns a Niggli cell of the same lattice", "statement": "Whatever basis is given, the reduction returns a basis that generates the same lattice points with the same signed volume, and when it reports success the returned basis meets every condition of a Niggli cell up to the tolerance.", "quantifier": "all bases, tolerances and numbers of rounds", "why_tests_cant": "Eight interacting steps repeated until none applies; a wrong boundary in one of them shows only on special lattices.", "anchors": ["c/niggli.c: niggli_reduce, step1-step8, reset"]}
{"id": "C116", "title": "The Brillouin-zone grid holds the nearest of all translates", "statement": "On a reduced reciprocal basis, and through the C library on any reciprocal basis without very short vectors, every grid point is stored at its nearest translates among all translates by reciprocal lattice vectors, not only the 125 searched, and every stored address is within twice the tolerance of the nearest.", "quantifier": "all meshes, shifts, unimodular transformations and bases", "why_tests_cant": "The window of two translates each way is enough only because the basis is reduced; tests cannot run over all lattices.", "anchors": ["c/gridsys.c: gridsys_get_bz_grid_addresses", "c/bzgrid.c: bzg_get_bz_grid_addresses", "c/niggli.c"]}
{"id": "C117", "title": "The Brillouin-zone grid of the Python class is that of the given lattice", "statement": "When the reduced basis generates the lattice of the given reciprocal basis, the check on the transformation matrix passes, a grid is generated exactly when the transformation of the mesh is unimodular, and when the basis is reduced it holds the nearest of all translates with respect to the given basis.", "quantifier": "all meshes, bases and reduced bases", "why_tests_cant": "The change of basis must cancel for every lattice.", "anchors": ["phono3py/phonon/grid.py: _relocate_BZ_grid_address"]}
{"id": "C118", "title": "A grid object holds exactly the wave vectors of its grid matrix and shift", "statement": "Whether the mesh is given as a length, as three numbers or as nine, the wave vectors of the stored addresses are, up to reciprocal lattice vectors, exactly the q with A q = n + S/2 for integer n, where A is the grid matrix and S the half shift; there are |det A| inequivalent ones, two stored indices are equivalent exactly when the table bzg2grg gives the same regular index, the microzone times A is the reciprocal lattice, and A is the matrix the user gave.", "quantifier": "all lattices, mesh arguments, shifts, symmetry datasets, both layouts, previous array contents", "why_tests_cant": "Smith normal form, relocation and the index tables must fit together for every integer matrix.", "anchors": ["phono3py/phonon/grid.py: GridMatrix, BZGrid"]}
{"id": "C119", "title": "A grid object is refused exactly when its grid breaks the symmetry", "statement": "Building a grid object fails exactly when the transpose of some rotation of the crystal does not carry the set of wave vectors of the grid matrix and shift to itself. On a grid that is built, every rotation and the change of sign carry each stored wave vector to a stored one up to a reciprocal lattice vector, and the stored integer rotations act on addresses as the reciprocal operations, in the same order, act on wave vectors.", "quantifier": "all lattices, grid matrices with elementary divisors below 100000, shifts and lists of rotations", "why_tests_cant": "Acceptance is decided by rounding tests on transformed matrices; a wrong accept or reject shows only on special matrices.", "anchors": ["phono3py/phonon/grid.py: BZGrid._set_rotations, BZGrid._satisfy_shift_symmetry"]}
{"id": "C120", "title": "Looking up an address finds its grid point, and gp_Gamma is the zone centre", "statement": "get_indices_from_addresses gives, for every integer address inside or outside of the zone, an index in range whose wave vector is that of the address up to a reciprocal lattice vector. Without a shift gp_Gamma is an index whose address and wave vector are zero.", "quantifier": "all grid objects and integer addresses, both layouts", "why_tests_cant": "Depends on the order of the search and on the pointer tables for every lattice.", "anchors": ["phono3py/phonon/grid.py: BZGrid.get_indices_from_addresses, BZGrid.gp_Gamma, BZGrid._set_bz_grid"]}
{"id": "C121", "title": "A mesh length gives the grid of the conventional supercell", "statement": "With generalized regular grids and a length, the rows of the grid matrix combine the given basis vectors to the mesh multiples of the conventional basis vectors, exactly when the conventional vectors are integer combinations, and otherwise within mesh times 1e-5 per entry, whether or not the standardised lattice is used.", "quantifier": "all lattices, transformation matrices, standardised lattices, rotations and lengths", "why_tests_cant": "Involves inverses and transposes of arbitrary matrices and two branches.", "anchors": ["phono3py/phonon/grid.py: GridMatrix._get_grid_matrix, GridMatrix._get_mock_symmetry_dataset"]}
{"id": "C122", "title": "Supercells with displacements are those of the dataset", "statement": "Whatever sequence of assignments, generations and readings is made, supercells_with_displacements of Phono3py returns, for each displacement of the current dataset in order, the supercell with exactly those atoms moved (None for pairs that are excluded), and phonon_supercells_with_displacements the same for the dataset for fc2; reading does not change the object. An assignment that raises leaves the object as it was, and new masses appear in the cells.", "quantifier": "All histories of calls on the object (datasets of both types, displacements, forces, energies, generation, masses, reading), including calls that raise.", "why_tests_cant": "The cells are cached and each setter has to reset the cache; a test checks a few orders of calls, the property is about all histories and includes failing calls.", "anchors": ["phono3py/api_phono3py.py: Phono3py.dataset, displacements, forces, supercells_with_displacements, phonon_dataset, phonon_supercells_with_displacements, generate_displacements, _build_supercells_with_displacements, _build_phonon_supercells_with_displacements", "phono3py/phonon3/displacement_fc3.py"]}
{"id": "C123", "title": "Forces stay with the displacements they belong to", "statement": "After any history, forces of the dataset belong to its displacements: forces are assigned in the order of the supercells, evaluate_mlp gives each supercell the forces and energy that the potential returns for it, and replacing displacements does not leave forces of other displacements behind.", "quantifier": "All histories of calls on the object and all potentials.", "why_tests_cant": "Force constants fitted to mismatched pairs look plausible; whether a pairing can be broken depends on the order of calls.", "anchors": ["phono3py/api_phono3py.py: Phono3py.forces, displacements, supercell_energies, evaluate_mlp, generate_displacements, dataset"]}
{"id": "C124", "title": "A calculation uses the data the object shows", "statement": "When a calculation (thermal conductivity, self-energies, phonons) does not raise, the fc3, fc2, band indices, masses, non-analytical-term parameters, grid and smearing widths it uses are those the Phono3py object shows at the time of the call, with the frequency scale factor given at initialisation.", "quantifier": "All histories of calls: setters, produce_fc*, in-place symmetrisation, mesh, init_phph_interaction, partial solution of phonons, earlier calculations.", "why_tests_cant": "The interaction object snapshots some attributes, shares some arrays and reads others live; stale combinations only appear for particular orders of calls.", "anchors": ["phono3py/api_phono3py.py: Phono3py.init_phph_interaction, nac_params, mesh_numbers, band_indices, fc2, fc3, masses, sigmas, run_thermal_conductivity, run_imag_self_energy, _init_dynamical_matrix", "phono3py/phonon3/interaction.py: Interaction.__init__, init_dynamical_matrix, _set_fc3, _allocate_phonon, run_phonon_solver"]}
{"id": "C125", "title": "Force constants come from the current datasets", "statement": "After produce_fc3, fc3 and (without a separate supercell) fc2 are those computed from the current dataset; after produce_fc2, fc2 is computed from the dataset for fc2 if there is one and from the other one otherwise, with the cell of that dataset; a refused assignment does not change which dataset is used.", "quantifier": "All states of the object and all force-constant solvers.", "why_tests_cant": "Depends on what the object held before: earlier force constants, datasets of either kind and refused assignments.", "anchors": ["phono3py/api_phono3py.py: Phono3py.produce_fc3, produce_fc2, phonon_dataset", "phono3py/phonon3/dataset.py: forces_in_dataset"]}
{"id": "C126", "title": "Symmetry-equivalent wave vectors have equivalent dynamical matrices", "statement": "For every operation of the crystal's space group, the dynamical matrix the library builds at the wave vector turned by the inverse operation is the one at the original wave vector with atoms permuted and Cartesian components rotated, with or without the non-analytical term correction. Hence a rotated eigenvector solves the rotated wave vector with the same frequency, whatever phase it is multiplied with.", "quantifier": "all crystals, force constants, shortest vectors and Born charges that the operation leaves invariant, all wave vectors", "why_tests_cant": "Tests compare frequencies at a few equivalent points of a few crystals; the permutation and the sums over equidistant images must match for every operation.", "anchors": ["c/dynmat.c:dym_get_dynamical_matrix_at_q", "c/phonon.c:get_charge_sum"]}
{"id": "C127", "title": "Phonons made from irreducible points are phonons", "statement": "When phonons are solved at irreducible grid points only and obtained elsewhere by rotation of eigenvectors and complex conjugation, every grid point ends with a complete orthonormal set of eigenvectors of its own dynamical matrix and the matching frequencies, exactly as if it had been solved directly, and each point is marked as done.", "quantifier": "all grids built for the crystal on which rounding does not decide the surface of the Brillouin zone, all lists of irreducible points that the procedure accepts, all states before the run", "why_tests_cant": "Tests compare frequencies and cannot compare eigenvectors of degenerate modes; the rotated address, matrix and permutation must agree for all operations and points.", "anchors": ["phono3py/phonon3/interaction.py: Interaction.run_phonon_solver_with_eigvec_rotation, Interaction._rotate_eigvecs, Interaction._get_reciprocal_rotations_in_space_group_operations"]}
{"id": "C128", "title": "Interaction strengths respect crystal symmetry", "statement": "Summed over the bands of a triplet, with any weight that depends on the three frequencies, the ph-ph interaction strengths do not depend on which orthonormal eigenvectors the solver returned for degenerate modes; they are the same for triplets of wave vectors related by an operation of the space group (up to reciprocal lattice vectors), for a triplet and its time reversal, and, with the weight's last two arguments exchanged, for a triplet whose second and third members are exchanged.", "quantifier": "All crystals with second- and third-order force constants that the operation leaves invariant, all choices of eigenvectors, all momentum-conserving triplets, all weight functions, both layouts of force constants, with and without averaging over the first atom.", "why_tests_cant": "A test compares a few strengths of one crystal; degenerate eigenvectors differ between LAPACK builds and the claim is about every choice, operation and triplet.", "anchors": ["c/interaction.c:itr_get_interaction_at_triplet", "c/real_to_reciprocal.c:r2r_real_to_reciprocal", "c/reciprocal_to_normal.c:reciprocal_to_normal_squared"]}
{"id": "C129", "title": "Irreducible triplets give the same linewidths as all triplets", "statement": "The irreducible triplets of a grid point with their weights give the same weighted sum of interaction strengths as all triplets of the mesh; linewidths computed triplet by triplet with smearing, averaged over bands of equal frequency, are the same with and without mesh symmetry.", "quantifier": "All meshes, Brillouin-zone grids, grid points, groups of operations of the crystal, with and without time reversal and exchange of the last two members, all temperatures, smearing functions, widths and cutoffs, all choices of eigenvectors.", "why_tests_cant": "Tests compare numbers of one crystal on one mesh within a tolerance.", "anchors": ["phono3py/phonon3/triplets.py:get_triplets_at_q", "phono3py/phonon3/triplets.py:get_nosym_triplets_at_q", "c/pp_collision.c:ppc_get_pp_collision_with_sigma"]}
{"id": "C130", "title": "The two languages of Interaction.run give the same strengths", "statement": "Interaction.run(lang='C') and Interaction.run(lang='Python') compute the same interaction strengths for the same object, and both leave the object in the same state. Found: this holds only for full force constants on a conventional mesh with none of the C options in use and for triplets in which no address has a zero component along a direction where the three addresses sum to a nonzero vector. Otherwise Python drops the prephase of that component, ignores the matrix Q of a generalised grid, raises IndexError on compact force constants, and leaves the flags of skipped entries of the previous run in place.", "quantifier": "All crystals, force constants, phonons, meshes, triplets, band selections, cutoffs and flags of entries to skip.", "why_tests_cant": "The existing test compares the two languages on a few grid points of one crystal. The phase that is dropped only matters for triplets that wrap around the zone with a zero component, in crystals with more than one atom.", "anchors": ["phono3py/phonon3/interaction.py: Interaction.run, _run_c, _run_py", "phono3py/phonon3/real_to_reciprocal.py: RealToReciprocal", "phono3py/phonon3/reciprocal_to_normal.py: ReciprocalToNormal", "c/interaction.c: itr_get_interaction_at_triplet", "c/real_to_reciprocal.c: r2r_real_to_reciprocal"]}
{"id": "C131", "title": "The two languages of CollisionMatrix.run give the same collision matrix", "statement": "For the triplets the code makes for a grid point, the Python and the C implementations of the collision matrix, over irreducible grid points with rotations and over all grid points, give the same array for a cutoff frequency that is not negative, and no assertion of the Python implementation fails.", "quantifier": "All meshes, Brillouin-zone grids, grid points, groups of operations, interaction strengths, frequencies, integration weights, temperatures and tables of rotated grid points.", "why_tests_cant": "Tests compare a few elements for one crystal; which members of a triplet play which role depends on the class of each grid point.", "anchors": ["phono3py/phonon3/collision_matrix.py: _run_py_collision_matrix, _run_py_reducible_collision_matrix, _get_inv_sinh, _get_gp2tp_map", "c/collision_matrix.c: col_get_collision_matrix, col_get_reducible_collision_matrix"]}
{"id": "C132", "title": "The two languages of ImagSelfEnergy.run give the same linewidths", "statement": "ImagSelfEnergy.run(lang='C') and run(lang='Py') give the same imaginary parts of the self-energy at bands and at frequency points. Found: at 0 K the Python implementation has no test against the cutoff frequency, so it agrees only when strengths of modes below the cutoff vanish; with averaged strengths they do not.", "quantifier": "All strengths, frequencies, triplets, weights, integration weights with sound flags, temperatures and cutoffs.", "why_tests_cant": "The existing tests compare the languages at one temperature for calculated strengths, which vanish below the cutoff.", "anchors": ["phono3py/phonon3/imag_self_energy.py: _ise_thm_with_band_indices, _ise_thm_with_band_indices_0K, _ise_thm_with_frequency_points, _ise_thm_with_frequency_points_0K", "c/imag_self_energy_with_g.c"]}
{"id": "C133", "title": "The two languages of smearing weights agree", "statement": "get_triplets_integration_weights with a smearing width gives the same weights in both languages. Found: this holds where no entry is flagged; the Python implementation ignores sigma_cutoff and returns no flags.", "quantifier": "All smearing functions, widths, cutoffs, frequency points, triplets, frequencies and entries.", "why_tests_cant": "Tests compare languages without sigma_cutoff.", "anchors": ["phono3py/phonon3/triplets.py: get_triplets_integration_weights, _set_triplets_integration_weights_py", "c/triplet_iw.c: tpi_get_integration_weight_with_sigma"]}
{"id": "C134", "title": "The joint density of states counts pairs of modes and respects crystal symmetry", "statement": "JointDos.run gives at every frequency point, with a temperature, the sum over pairs of modes above the cutoff frequency of (n1+n2+1) times the weight of decay (second column) and of (n1-n2) times the weight of absorption (first column), and without temperature the sums of the weights of f=f1+f2 and of f=f2-f1 and f=f1-f2, per grid point; both languages agree; with smearing the result from irreducible triplets with their weights is the result from all triplets.", "quantifier": "All meshes, Brillouin-zone grids, grid points, groups of operations of the crystal, with and without time reversal and exchange of the last two members, temperatures, smearing functions, widths and cutoffs, frequency points, all choices of eigenvectors.", "why_tests_cant": "Tests compare numbers of one crystal on one mesh within a tolerance.", "anchors": ["phono3py/phonon3/joint_dos.py: JointDos.run_integration_weights, run_jdos, _run_c_with_g_at_temperature, _run_py_with_g_at_temperature", "phono3py/phonon3/triplets.py: get_triplets_at_q, get_nosym_triplets_at_q"]}
{"id": "C135", "title": "A dataset of displacements and forces survives phono3py.yaml", "statement": "Phono3py.save followed by phono3py.load gives back every displaced supercell of a type-1 dataset in the same order with its id, atoms, displacements, pair distances, marks of inclusion, cutoff, duplicates and, if saved with forces, its forces and energies, up to the printed digits; saving and loading again changes nothing; the supercells used for force constants are the same before and after.", "quantifier": "All type-1 datasets, with and without cutoff, forces and energies, all numbers of atoms and pairs, all directions from which displacements are generated, all roundings.", "why_tests_cant": "Tests save and load the dataset of one crystal; which keys are lost depends on the combination of cutoff, forces, ids and order.", "anchors": ["phono3py/interface/phono3py_yaml.py: displacements_yaml_lines_type1, _second_displacements_yaml_lines, _displacements_yaml_lines_type1_info, Phono3pyYamlLoader._parse_fc3_dataset, _parse_fc3_dataset_type1, _parse_fc3_dataset_type1_with_forces, _parse_fc3_dataset_type1_without_forces", "phono3py/phonon3/displacement_fc3.py: direction_to_displacement", "phono3py/phonon3/dataset.py: get_displacements_and_forces_fc3"]}
{"id": "C136", "title": "phono3py.load takes force constants from the documented sources in the documented order", "statement": "phono3py.load takes fc3 from the first source that exists in the order of its documentation: the file given as fc3_filename, forces in the file given as forces_fc3_filename (a name, or a pair of names), fc3.hdf5 in the working directory, forces in FORCES_FC3 in the working directory. fc2 is read from fc2_filename or fc2.hdf5 if there, and otherwise is made from the forces for fc2, which are those for fc3 without a separate supercell.", "quantifier": "all working directories, all phono3py.yaml contents, all combinations of arguments, all solvers", "why_tests_cant": "The precedence has to hold for every combination of files and arguments; tests exercise a handful of directories.", "anchors": ["phono3py/cui/load.py:load", "phono3py/cui/load.py:load_fc2_and_fc3", "phono3py/cui/load.py:select_and_load_dataset", "phono3py/cui/load.py:compute_force_constants_from_datasets", "phono3py/cui/create_force_constants.py:parse_forces"]}
{"id": "C137", "title": "Repeated phono3py-load runs use the same force constants", "statement": "Running phono3py-load again in a directory uses the force constants that are stored there: a run does not change fc3.hdf5 and fc2.hdf5 that it only reads, an option such as --cutoff-fc3 concerns the run for which it is given, and an interrupted run does not destroy stored force constants.", "quantifier": "all histories of runs with and without --cutoff-fc3, all stored force constants, all crash points", "why_tests_cant": "The claim is about every sequence of runs and every interruption; tests run a command once in a fresh directory.", "anchors": ["phono3py/cui/phono3py_script.py:_store_force_constants", "phono3py/cui/load.py:load_fc2_and_fc3", "phono3py/file_IO.py:write_fc3_to_hdf5"]}
{"id": "C138", "title": "The phono3py command makes or reads the force constants it needs", "statement": "The phono3py command makes the force constants that a calculation needs from the forces, or reads them with --fc3 and --fc2; files that are read are not changed; where a calculation needs only fc2 it is made from the forces without fc3.", "quantifier": "all settings, all forces, all directories", "why_tests_cant": "Every combination of the settings must lead to force constants; one combination of each is tested at most.", "anchors": ["phono3py/cui/create_force_constants.py:create_phono3py_force_constants", "phono3py/cui/create_force_constants.py:_read_dataset_fc2"]}
{"id": "C139", "title": "A smaller --cutoff-pair given for the force constants leaves out the pairs beyond it", "statement": "When fc3 is made from displacements of pairs, the cutoff in use is the smaller one of that of the displacements and that given with --cutoff-pair, and the pairs of atoms that are taken as computed are those below it.", "quantifier": "all datasets, cutoffs and distances", "why_tests_cant": "The rule has to hold for every dataset, with and without inclusion marks.", "anchors": ["phono3py/cui/create_force_constants.py:parse_forces", "phono3py/phonon3/fc3.py:_get_fc3_done"]}
{"id": "C140", "title": "The displacement correlation of DispCorrMatrix is that of quantum oscillators", "statement": "For masses > 0, T > 0 and any eigenvectors returned by the solver, a DispCorrMatrix.run(T) that returns gives psi_matrix = covariance of displacements whose mode amplitudes are independent, normally distributed and have the quantum mean square amplitude (modes at or below the cutoff at rest); both matrices are symmetric, positive semidefinite, generalised inverses of each other (inverses if no mode is left out), functions of the force constants alone, and vanish on rigid translations if the acoustic sum rule holds; prefactor * exp(-u Upsilon u / 2) integrates to one over the kept modes.", "quantifier": "All supercells, masses, force constants, temperatures, cutoffs and choices of eigenvectors (degenerate ones included).", "why_tests_cant": "Unit tests compare a few entries for one crystal; the identities are about every spectrum and every basis of a degenerate eigenspace.", "anchors": ["phono3py/sscha/sscha.py: SupercellPhonon, DispCorrMatrix.run", "phono3py/phonon/func.py: bose_einstein, sigma_squared"]}
{"id": "C141", "title": "Stochastic force constants are exact where the theory is", "statement": "For harmonic forces SecondOrderFC returns the force constants exactly for every sample of displacements that spans them. For forces up to second order in the displacements and a sample with the mean and fourth moments of a normal distribution, ThirdOrderFC returns the third-order force constants exactly; for harmonic forces it returns zero (violated: a sample with a mean displacement gives spurious third-order force constants); the result is symmetric under permutations (violated for the third index), and obeys sum rules if forces, force constants and displacements have no drift.", "quantifier": "All samples of displacements, forces and force constants of any size; every pseudo-inverse satisfying the Penrose conditions.", "why_tests_cant": "A test has one sample with a tolerance set by its statistical noise.", "anchors": ["phono3py/sscha/sscha.py: SecondOrderFC.run, ThirdOrderFC.run"]}
{"id": "C142", "title": "Mean square displacements leave numpy's error handling alone", "statement": "sigma_squared and DispCorrMatrix.run return for positive temperature and frequencies as long as no exponential leaves the range of doubles, and leave the process-wide handling of floating-point errors as they found it (violated whenever the call fails: at T = 0 and at low temperature every later floating-point error of the process raises).", "quantifier": "All temperatures, frequencies and previous states of numpy's error handling.", "why_tests_cant": "A test of the failing call does not look at the global state it leaves behind.", "anchors": ["phono3py/phonon/func.py: sigma_squared"]}
{"id": "C143", "title": "Collision data read at selected temperatures are the data at these temperatures", "statement": "Reading stored collision data with a selection of temperatures (`--read-collision` with indices, `read_collision=[...]`) gives a calculation at exactly the selected temperatures, each with the collision matrix and the linewidths that were stored for it, whether they were stored in one file, per grid point or per band; and `read_collision=True` of the API reads them.", "quantifier": "every mesh, list of smearing widths, number of temperatures, list of irreducible grid points, number of bands, every history of writing calls that left the files, and every increasing list of indices", "why_tests_cant": "the tests read whole collision files of one temperature only; the outcome depends on the layout of the files, the number of temperatures in them and the number of indices, through numpy broadcasting", "anchors": ["phono3py/conductivity/utils.py: set_collision_from_file, _allocate_collision, _collect_collision_gp, _collect_collision_band", "phono3py/file_IO.py: read_collision_from_hdf5", "phono3py/conductivity/direct_solution.py: get_thermal_conductivity_LBTE", "phono3py/api_phono3py.py: run_thermal_conductivity"]}
{"id": "C144", "title": "A setting is what its command option says, else what its tag says, else the default", "statement": "For every configuration file and command line of `phono3py` and `phono3py-load` that is read without error, every setting of phono3py has the value of its command option if the option is given (the last one if given more than once), else the value of its setting tag if the configuration file has it in any spelling of upper and lower case, else its default.", "quantifier": "every list of lines of a configuration file, every list of command options with any texts, both commands, any default settings and any conversion of texts to values", "why_tests_cant": "the tests run a handful of options without configuration files; there are some sixty options and tags, any of which can be combined in any order", "anchors": ["phono3py/cui/settings.py: Phono3pyConfParser", "phono3py/cui/phono3py_argparse.py: get_parser", "phono3py/cui/phono3py_script.py: read_phono3py_settings"]}
{"id": "C145", "title": "Forces collected from calculator output belong to the supercells they were calculated for", "statement": "`phono3py --cf3/--cf3-file/--cf2 [--cfz] [--cfz-fc2] [--sp]` either stops and writes nothing, or writes FORCES_FC3, FORCES_FC2 or phono3py_params.yaml in which every displaced supercell has the forces of its own output file minus the residual forces, when the output files are given in the order of the supercell files. FORCES_FC3 and phono3py_params.yaml give the same usable dataset, output files are read with the calculator of phono3py_disp.yaml, and newly collected forces replace old ones.", "quantifier": "every displacement dataset of either type with or without a pair cutoff, every list of output files, every combination of the options, every parser of calculator output", "why_tests_cant": "the tests collect forces for one crystal with the right number of files and one calculator; misplaced or stale forces show only in the force constants", "anchors": ["phono3py/cui/create_force_sets.py: create_FORCES_FC3_and_FORCES_FC2", "phono3py/cui/create_force_sets.py: _get_force_sets_fc2", "phono3py/cui/create_force_sets.py: _get_force_sets_fc3", "phono3py/cui/create_force_sets.py: _set_forces_and_nac_params", "phono3py/file_IO.py: write_FORCES_FC3"]}
{"id": "C146", "title": "A self-energy object's result belongs to its current settings", "statement": "After any sequence of calls of the methods of an `ImagSelfEnergy` object (`set_grid_point`, `set_sigma`, `frequency_points`, `temperature`, `run_interaction`, `run_integration_weights`, `set_averaged_pp_interaction`, `set_interaction_strength`, `delete_integration_weights`, `run`), `imag_self_energy` is the self-energy of the grid point, frequency points, smearing width and temperature given last, or an error is raised.", "quantifier": "every sequence of calls, also with another object that shares the `Interaction` object, every grid point, smearing width, list of frequency points and temperature, every event class", "why_tests_cant": "tests make the calls in one fixed order on fresh objects; stale weights, flags or strengths show only in other orders", "anchors": ["phono3py/phonon3/imag_self_energy.py: ImagSelfEnergy", "phono3py/phonon3/interaction.py: Interaction.run", "phono3py/phonon3/interaction.py: Interaction.set_grid_point"]}
{"id": "C147", "title": "Linewidths of conductivity runs do not depend on how interaction strengths are obtained", "statement": "For every grid point, smearing width and temperature, `run_thermal_conductivity` computes the linewidth (and, for the direct solution, the collision matrix) of exactly this grid point, width and temperature, with or without `--full-pp`, with strengths read from files written by `--write-pp` for the same width, and whatever other grid points, widths and temperatures are in the run. In the relaxation time approximation, files whose zero flags are not those of this width are refused. With `--ave-pp` or `--const-ave-pp` all linewidths come from strengths with the given averages.", "quantifier": "every list of grid points, smearing widths and temperatures, with or without a smearing cutoff, every combination of the options, every state the self-energy object is in", "why_tests_cant": "tests compare options for one crystal, one width and one temperature; strengths dropped or carried over between widths show only for certain lists and options", "anchors": ["phono3py/conductivity/rta.py: ConductivityRTABase._set_gamma_at_sigmas", "phono3py/conductivity/direct_solution.py: ConductivityLBTEBase._set_collision_matrix_at_sigmas", "phono3py/phonon3/imag_self_energy.py: ImagSelfEnergy", "phono3py/phonon3/interaction.py: Interaction.averaged_interaction"]}
{"id": "C148", "title": "get_imag_self_energy returns values and triplet contributions of the stated settings", "statement": "`get_imag_self_energy` (`run_imag_self_energy`) returns, at each place of its arrays, the self-energy of that smearing width, temperature, grid point and frequency point. With `write_gamma_detail` or `return_gamma_detail`, the file of each grid point and smearing width and the returned list (one array for each grid point) hold the contributions of triplets at that width and temperature.", "quantifier": "every list of grid points, smearing widths, temperatures and batches of frequency points, every event class", "why_tests_cant": "tests use one smearing width, and one temperature with details; wrong places show only with several", "anchors": ["phono3py/phonon3/imag_self_energy.py: get_imag_self_energy", "phono3py/phonon3/imag_self_energy.py: _get_imag_self_energy_at_sigma", "phono3py/phonon3/imag_self_energy.py: run_ise_at_frequency_points_batch"]}
{"id": "C149", "title": "fc3 from the forces of generated displacements is exact for third-order crystals", "statement": "For a crystal whose forces are polynomials of second order in the displacements (force constants of second and third order, any forces at rest), the supercells made by `generate_displacements` (both signs where needed, inequivalent second atoms and reduced directions only) contain enough information: `produce_fc3` with the forces of these supercells gives, for each first displacement, exactly the change of the force constants it induces, and all elements of fc3 exactly, for every displacement length that is not below the symmetry tolerance in crystal coordinates.", "quantifier": "every crystal and symmetry, all force constants invariant under it, every displacement length above the tolerance, with and without plus-minus or diagonal displacements; no pair cutoff, full array of fc3", "why_tests_cant": "a test compares a few crystals with stored numbers; whether symmetry-reduced displacements always determine fc3 ranges over all site groups and force constants", "anchors": ["phono3py/phonon3/displacement_fc3.py: get_third_order_displacements, get_reduced_site_symmetry, get_bond_symmetry", "phono3py/phonon3/fc3.py: get_fc3, _get_fc3_least_atoms, _get_constrained_fc2, _solve_fc3"]}
{"id": "C150", "title": "Memory-saving linewidths equal those from stored strengths", "statement": "In the relaxation time approximation, a run that does not ask for stored, averaged or constant interaction strengths computes linewidths triplet by triplet without storing strengths. For every grid point, smearing width (or the tetrahedron method) and temperature the linewidths, and their normal and Umklapp parts, are the same as those computed from stored interaction strengths, and do not depend on what memory held before.", "quantifier": "all crystals, grids, triplet lists, band selections, frequencies and eigenvectors, smearing widths and cutoffs, lists of temperatures, and contents of allocated memory", "why_tests_cant": "The two routes are separate C loops with separate weight arrays; agreement must hold for every list of triplets, degeneracy, width and memory content.", "anchors": ["phono3py/conductivity/rta.py:ConductivityRTABase._run_at_grid_point", "phono3py/conductivity/rta.py:ConductivityRTABase._set_gamma_at_sigmas_lowmem", "c/pp_collision.c:ppc_get_pp_collision", "c/pp_collision.c:ppc_get_pp_collision_with_sigma", "phono3py/phonon3/imag_self_energy.py:ImagSelfEnergy"]}
{"id": "C151", "title": "Joint-DOS runs give the values of their settings whatever was run before", "statement": "For an object of the joint density of states created with a mesh: after any sequence of runs, with whatever widths, temperatures, batch sizes and grid points and whether they succeeded or raised, a run with at least one width and a positive batch size succeeds. Its frequency points are those of the phonons without direction. For every grid point, width and temperature, each frequency point gets what the code computes for that point alone from the phonons of the grid, where the phonons at Gamma carry the non-analytical direction if and only if the grid point is Gamma. Batches have no effect.", "quantifier": "All histories of runs, grids, force constants and Born charges, both methods of the non-analytical term, with and without LAPACKE, all directions, widths (tetrahedron method and smearing), temperatures with sound occupations, frequency points and batch sizes", "why_tests_cant": "The phonons at Gamma are overwritten back and forth inside one shared array, guarded by flags; whether a stale direction survives depends on the sequence of earlier runs, and tests run one or two sequences.", "anchors": ["phono3py/phonon3/joint_dos.py:JointDos.set_grid_point", "phono3py/phonon3/joint_dos.py:JointDos.run_phonon_solver_at_gamma", "phono3py/phonon3/joint_dos.py:JointDos.run", "phono3py/api_jointdos.py:Phono3pyJointDos.run", "phono3py/api_jointdos.py:Phono3pyJointDos.initialize"]}
{"id": "C152", "title": "Direct solution and relaxation time approximation of the Wigner transport equation agree where they calculate the same", "statement": "For the same crystal, linewidths and settings the coherences' conductivity of the direct solution is that of the relaxation time approximation, and so is the populations' conductivity it reports for the relaxation time approximation. The attributes and files with totals hold the sum of both parts.", "quantifier": "every crystal, set of velocity operators, linewidths, temperature, and history of evaluations", "why_tests_cant": "All spectra, including degenerate ones, and all velocity operators.", "anchors": ["phono3py/conductivity/direct_solution.py:ConductivityWignerLBTE", "phono3py/conductivity/wigner.py:ConductivityWignerMixIn", "phono3py/conductivity/utils.py:ConductivityLBTEWriter.write_kappa"]}
{"id": "C153", "title": "A run performs the calculation its options select, with the values given or the defaults, or stops with a message", "statement": "When exactly one of --gruneisen, --jdos, --isotope, --ise, --rse, --spf, --br and --lbte is given with mesh and grid points, a run of phono3py performs that calculation on that mesh and at those grid points (those of the addresses when addresses are given), with the temperatures, smearing widths, sampling frequencies, factors and cutoff given or their defaults. It uses the phonons read from the phonon file when --read-phonon is given and the solved ones otherwise; --write-phonon stores the phonons used, and a later run reading them calculates with the same phonons. No phonon file changes otherwise. --isotope beside --br or --lbte adds isotope scattering. A run lacking a mesh or grid points stops with a message and a nonzero exit status.", "quantifier": "all combinations of the options and values, all meshes, grid points, contents of phonon files, harmonic solvers and sequences of a writing and a reading run", "why_tests_cant": "The options combine freely: some two dozen of them decide together which branch is taken, what is written and what is read; tests run a few combinations on one crystal and never combine reading and writing.", "anchors": ["phono3py/cui/phono3py_script.py: get_run_mode, get_default_values, settings_to_grid_points, run_gruneisen_then_exit, run_jdos_then_exit, run_isotope_then_exit, init_phph_interaction, main", "phono3py/file_IO.py: write_phonon_to_hdf5, read_phonon_from_hdf5"]}
{"id": "C154", "title": "phono3py-kaccum prints the accumulated property of the modes in the file for every temperature or the one asked for", "statement": "For each property it offers (conductivity against frequency or mean free path, group velocities, linewidths, lifetimes, heat capacities, density of states, averaged strengths, Grueneisen parameters), phono3py-kaccum prints for every temperature of the file one block labelled with that temperature, of as many rows as asked for; its last accumulated value is the total of the modes in the file over the number of mesh points, each irreducible point as often as its weight, for every tensor element, their average or their trace as asked. With --temperature it prints exactly the block of the first temperature within 1e-8, or fails when there is none.", "quantifier": "every file and grid, all options, numbers of rows and temperatures", "why_tests_cant": "All meshes, symmetries, spectra and combinations of options; the total must agree with the conductivity in the file.", "anchors": ["phono3py/cui/kaccum_script.py:main", "phono3py/cui/kaccum_script.py:_run_tensor", "phono3py/cui/kaccum_script.py:_run_scalar", "phono3py/other/kaccum.py:run_prop_dos", "phono3py/other/kaccum.py:run_mfp_dos"]}
{"id": "C155", "title": "Isotope linewidths do not depend on the eigenvectors chosen and respect crystal symmetry", "statement": "With smearing, the sum over the modes at a grid point of any function of the frequency times the isotope linewidth (so the total linewidth of each frequency, and the linewidth of each non-degenerate mode) is the same for all sets of eigenvectors that solve the dynamical matrix at that point and at its partners, the same at grid points that an operation of the space group respecting mass variances takes into each other, with or without time reversal, and the same at copies of a point on the surface of the Brillouin zone. The linewidth of a single degenerate mode does depend on the eigenvectors returned, and the code does not average it.", "quantifier": "all crystals, meshes, space-group operations, pairs of equivalent grid points, orthonormal eigenvector sets, mass variances, smearing functions, widths, cutoff frequencies", "why_tests_cant": "LAPACK returns one choice of eigenvectors per platform; a test compares numbers of one choice", "anchors": ["phono3py/other/isotope.py:Isotope._run_c", "c/isotope.c:iso_get_isotope_scattering_strength", "phono3py/conductivity/base.py:_get_gamma_isotope_at_sigmas", "phono3py/conductivity/rta.py:_set_gamma_at_sigmas"]}
{"id": "C156", "title": "Each order of force constants is computed by the calculator and with the options named for it", "statement": "With `--fc-calc A|B` and `--fc-calc-opt X|Y`, second-order force constants are computed by A with options X and third-order ones by B with options Y; an empty part means the built-in solver or no options, and a single text serves both orders. A cutoff pair distance is added to the options of fc3 only, in the form its calculator expects, and not if they have one already. In phono3py-load, force constants read from files are kept, and symfc stands in only where the built-in solver cannot treat the displacements. This fails: an unknown name is dropped without a message, so that the other name takes both orders; with random displacements `|symfc` takes fc2 from the fit of fc3 with the options of fc3, and `alm|` computes fc2 by symfc; options given as a dictionary are changed in place, so fc2 gets the cutoff too and a later call keeps the earlier cutoff.", "quantifier": "all texts of calculators, options and cutoff distances, all lists of known calculators, all datasets (forces or not, general displacements or not, extra supercell or not), all force constants read before", "why_tests_cant": "tests run a few calculator strings with all solvers installed and compare force constants of one crystal, where both solvers agree closely", "anchors": ["phono3py/cui/create_force_constants.py:get_fc_calculator_params", "phono3py/cui/create_force_constants.py:_set_cutoff_in_fc_calculator_options", "phono3py/interface/fc_calculator.py:extract_fc2_fc3_calculators", "phono3py/interface/fc_calculator.py:update_cutoff_fc_calculator_options", "phono3py/cui/load.py:compute_force_constants_from_datasets", "phono3py/cui/phono3py_script.py:_store_force_constants", "phono3py/api_phono3py.py:Phono3py.produce_fc3", "phono3py/api_phono3py.py:Phono3py.produce_fc2"]}
{"id": "C157", "title": "A conductivity put together from runs at single grid points and bands is that of one run", "statement": "Linewidths may be computed in any number of runs (`grid_points`, band selections, `write_gamma`), in any order, repeated, and each killed after any number of files. A run over the whole mesh with `read_gamma` in that directory then returns the same linewidths, normal and Umklapp parts, isotope linewidths and conductivity as a run that computes everything, if the files cover the mesh, which they do once every grid point was done by a run that came to its end; otherwise it returns False and writes nothing. This fails: stored temperatures are not looked at, so files made at other temperatures (as many, or just one) are taken for those of the run; a summary file of another calculation is preferred to newer files of grid points; Green-Kubo runs, and runs with isotope scattering and selected bands, end with an exception when they are to store linewidths; a reading run with selected bands stores the linewidths of other bands.", "quantifier": "all settings, all crystals (any linewidths, any function from linewidths to conductivity), all finite histories of runs with a kill after any number of files", "why_tests_cant": "a test runs one calculation to its end and reads it back with the same settings; histories of partial and killed runs over a shared directory are unbounded", "anchors": ["phono3py/conductivity/rta.py:get_thermal_conductivity_RTA", "phono3py/conductivity/rta.py:ConductivityRTABase._run_at_grid_point", "phono3py/conductivity/utils.py:ConductivityRTAWriter.write_gamma", "phono3py/conductivity/utils.py:ConductivityRTAWriter.write_kappa", "phono3py/conductivity/utils.py:set_gamma_from_file", "phono3py/file_IO.py:read_gamma_from_hdf5"]}
{"id": "C158", "title": "A direct solution resumed from stored collision data is that of one run", "statement": "Collision data may be computed in any number of runs (`grid_points`, band selections, `write_collision`), in any order, repeated, and each killed after any number of files. A run over the whole mesh with `read_collision` in that directory then returns the same temperatures, linewidths, collision matrix, isotope linewidths and conductivity as a run that computes everything, if the files cover the mesh, which they do once every grid point was done by a run that came to its end. The stored data are used: what takes long is not done again. This fails: reading stores into the arrays of the object without telling it, so linewidths and collision matrix of every grid point are computed again and the stored numbers never reach the result; only the temperatures are taken from the files. A run at some of the grid points that also asks for the file with everything writes its part under the name of the whole, after which reading raises; files of single grid points hold the isotope linewidths of the first grid point of their run; reading one temperature from files of grid points does the calculation at all of them.", "quantifier": "all settings, all crystals (any linewidths, collision matrices, any function from these to conductivity), both layouts of the collision matrix, all finite histories of runs with a kill after any number of files, and for the violations all directories", "why_tests_cant": "a test that compares a reading run with a computing run passes, since both compute; that files with any other numbers give the same result is a statement over all directories", "anchors": ["phono3py/conductivity/direct_solution.py:get_thermal_conductivity_LBTE", "phono3py/conductivity/direct_solution.py:ConductivityLBTEBase._run_at_grid_point", "phono3py/conductivity/utils.py:set_collision_from_file", "phono3py/conductivity/utils.py:ConductivityLBTEWriter.write_collision", "phono3py/conductivity/base.py:ConductivityBase.gamma"]}
{"id": "C159", "title": "Force constants read and symmetrised are those that were computed and symmetrised", "statement": "Third-order force constants that a run computes with symmetrisation (`--sym-fc`) and writes to fc3.hdf5 are taken unchanged by a run that reads them, with or without symmetrisation; reading with symmetrisation gives force constants that are symmetric under permutations and whose sums over each atom vanish, and changes none that already are. Files for another supercell are refused. This holds for full arrays. It fails for compact arrays: reading applies the routines for full arrays to them, so sums over the atoms of the primitive cell alone are removed; with one atom in the primitive cell every force constant becomes zero, however symmetric the file was. The leading dimension of the array is not compared with the crystal unless the file has a map of primitive atoms.", "quantifier": "all numbers of atoms, all arrays, all files, all maps of the primitive cell into the supercell", "why_tests_cant": "that a symmetrised array is a fixed point is a statement over all arrays; tests read full arrays, and the values of compact arrays after reading are not compared with those before", "anchors": ["phono3py/cui/create_force_constants.py:_read_phono3py_fc3", "phono3py/file_IO.py:read_fc3_from_hdf5", "phono3py/phonon3/fc3.py:set_translational_invariance_fc3", "phono3py/phonon3/fc3.py:set_permutation_symmetry_fc3"]}
{"id": "C160", "title": "The printed drift is the largest sum of the force constants over each atom index", "statement": "For each of the three indices the line `Max drift of fc3` gives the sum over all atoms of that index that is largest in absolute value, with the three directions at which it is found, and printing leaves the force constants as they are. True for full arrays; for compact arrays true of the second and the third index. It fails for the first index of compact arrays: the first two letters come exchanged; and when the supercell has a lattice translation of order two (any even multiple of the primitive cell) the transposition it relies on skips elements, so that a drift is printed where there is none and none where there is one. For force constants symmetric under permutations the first value is right in every supercell.", "quantifier": "all numbers of atoms, all arrays, all supercells", "why_tests_cant": "a maximum over all lines of an array for every array; tests of printed text do not compare with sums of the expanded force constants", "anchors": ["phono3py/phonon3/fc3.py:show_drift_fc3", "c/fc3.c:fc3_transpose_compact_fc3"]}
{"id": "C161", "title": "A run that makes supercells makes the displacements its options ask for", "statement": "A run with `-d`, `--rd` or `--rd-fc2` has displacements for fc3 as `--rd` (a number, or `auto` for twice the number estimated for the supercell), `--pm`, `--nodiag`, `--amplitude` (or the documented default of the calculator), `--cutoff-pair` and `--random-seed` ask for, and when there is a supercell for fc2, given by `--dim-fc2` or known from the input file, displacements in that supercell as `--rd-fc2` and `--pm-fc2` ask for. Each supercell to be calculated is written under its number in the dataset. Without these options nothing is made. This holds for fc3, and for fc2 with `--dim-fc2` and a number. It fails for fc2: `--rd-fc2 auto` takes the number estimated for the supercell of fc3; a matrix known from the input file gives displacements by `--pm`, and `--pm-fc2` does nothing; `--rd-fc2` without a matrix puts displacements into phono3py_disp.yaml for which no supercell is written.", "quantifier": "all options, all crystals and calculators, all generators of displacements and estimates of numbers", "why_tests_cant": "the combinations of options and sources of the matrix are many, and random or symmetry-adapted displacements differ from crystal to crystal; the statement is about which generator is called with what in every case", "anchors": ["phono3py/cui/create_supercells.py:create_phono3py_supercells", "phono3py/cui/phono3py_script.py:create_supercells_with_displacements", "phono3py/cui/phono3py_script.py:get_cell_info", "phono3py/api_phono3py.py:Phono3py.generate_displacements", "phono3py/api_phono3py.py:Phono3py.generate_fc2_displacements", "phono3py/interface/calculator.py:get_default_displacement_distance"]}
{"id": "C162", "title": "Conversion between FORCES_FC3, FORCES_FC2 and phonopy's FORCE_SETS keeps every displacement's forces", "statement": "`--cfs` writes a FORCE_SETS with the single displacements of the dataset, each with the forces that phono3py reads for it from FORCES_FC3, or with `--dim-fc2` from FORCES_FC2; after `--cf3` these are the forces of the output file of its own supercell. It does so only if the supercell matrix agrees with the yaml file, and leaves files with displacements of all atoms alone. `--fs2f2` writes a FORCES_FC2 from which the same forces are read. A forces file with too few lines must be an error. It is, unless the yaml file has forces of its own (phono3py_params.yaml given with `-c`): then FORCE_SETS is written with those, without a word. `--fs2f2` for a FORCE_SETS with displacements of all atoms ends with an error after the file was written, unless it is quiet.", "quantifier": "all datasets, forces files, FORCE_SETS files, supercell matrices and options", "why_tests_cant": "the correspondence of lines and displacements must hold for every number of atoms and displacements and for every file content", "anchors": ["phono3py/cui/create_force_sets.py:create_FORCE_SETS_from_FORCES_FCx", "phono3py/cui/create_force_sets.py:create_FORCES_FC2_from_FORCE_SETS", "phono3py/file_IO.py:parse_FORCES_FC2", "phono3py/file_IO.py:get_length_of_first_line", "phono3py/file_IO.py:write_FORCES_FC2"]}
{"id": "C163", "title": "A saved phono3py yaml file gives back each dataset for what it was", "statement": "After saving and loading, the dataset for fc3 and the dataset for fc2 are those of the saved object, and neither is taken for the other; if one was not set, it is not set after loading. This holds when both are set, when only the one for fc2 is set, and when only one for fc3 with displacement pairs is set or there is no supercell for fc2. It fails with a supercell for fc2 and displacements of all atoms for fc3 alone: these are loaded as the dataset for fc2 as well, and if they have forces FORCES_FC2 is not looked at. Lines printed by `--fs2f2` have no effect in such a file.", "quantifier": "all datasets of the three kinds, with or without a supercell for fc2, all working directories", "why_tests_cant": "the kinds of the two datasets, their presence and the presence of the second supercell combine; tests save and load a few of the combinations", "anchors": ["phono3py/interface/phono3py_yaml.py:Phono3pyYamlLoader._parse_dataset", "phono3py/interface/phono3py_yaml.py:Phono3pyYamlLoader._parse_fc3_dataset", "phono3py/interface/phono3py_yaml.py:Phono3pyYamlDumper._displacements_yaml_lines", "phono3py/interface/phono3py_yaml.py:displacements_yaml_lines_type1", "phono3py/cui/load.py:_select_and_load_phonon_dataset"]}
{"id": "C164", "title": "Isotope linewidths after any history of calls are those of the crystal, grid point and smearing width in force", "statement": "Whatever grid points and smearing widths were calculated before, a run of the isotope object gives the linewidths of its dynamical matrix and direction at the grid point and width set last, and `Phono3pyIsotope.run` gives this for every grid point and width of its lists. In a conductivity calculation the linewidths are those of the phonons of the phonon-phonon interaction. It fails after a change of crystal: once a run was made, a new dynamical matrix or a new direction has no effect on any later run, and a direction cannot be taken back.", "quantifier": "all histories of calls (grid points, widths, runs), all dynamical matrices, directions and lists of grid points and widths", "why_tests_cant": "the object keeps phonons between runs; that they are the right ones must hold for every sequence of calls, tests make one run per object", "anchors": ["phono3py/other/isotope.py:Isotope", "phono3py/api_isotope.py:Phono3pyIsotope.run", "phono3py/conductivity/base.py:ConductivityBase._get_gamma_isotope_at_sigmas"]}
{"id": "C165", "title": "With a machine-learning potential the force constants are those of the potential, and it stays the same from run to run", "statement": "`phono3py-load --pypolymlp` uses the potential in polymlp.yaml; without one it trains a potential on the given forces and energies and saves it there, and every later run in the directory uses that one. With `-d` or `--rd` it makes the displacements asked for (both signs, 0.01 unless a distance is given), gives each displaced supercell the forces that the potential has for it, and calculates fc3 and fc2 from these; the training data serve for nothing else. It fails in these cases: a yaml file with displacements but no forces is refused although polymlp.yaml is there, against the documentation; a file such as polymlp.yaml.bak that is listed first makes the run train again and write over polymlp.yaml; a compressed potential is found but not opened; with a supercell for fc2 the potential is not used for fc2 and the run ends with an error; left-over fc3.hdf5 and fc2.hdf5 are used instead of the new forces; `phono3py.load(use_pypolymlp=True)` trains a potential and returns without fc3.", "quantifier": "all directories and orders of their listing, datasets, options, potentials and sequences of runs", "why_tests_cant": "which potential and dataset are used depends on the directory and the runs before; tests make one run with a fresh directory", "anchors": ["phono3py/cui/create_force_constants.py:run_pypolymlp_to_compute_forces", "phono3py/cui/phono3py_script.py:main", "phono3py/cui/load.py:load", "phono3py/api_phono3py.py:Phono3py.evaluate_mlp", "phono3py/api_phono3py.py:Phono3py._check_mlp_dataset"]}
{"id": "C166", "title": "Averaging over the first atom is the mean over the three choices and makes interaction strengths symmetric", "statement": "With make_r0_average, each element of the reciprocal-space fc3 of a triplet is the mean of the three elements computed without it, taking each of the three phonons as the first in turn; the shortcut of counting a triple of atoms three times once its three distances are all shortest changes nothing. A triple is marked so exactly if there are periodic images that are nearest to each other in pairs, each the only nearest image. For force constants with permutation and translation symmetry, the strength of an interaction then does not depend on the order of its three phonons.", "quantifier": "all crystals, supercells, lists of shortest vectors within the tolerance, force constants (full or compact) symmetric under permutations and translations, triplets of wave vectors that sum to a reciprocal lattice vector, and all permutations of the three phonons", "why_tests_cant": "Tests compare sums of one or two crystals with stored numbers; which triples share one set of images depends on the shape of the supercell, and only a proof shows that the shortcut is exact for all of them.", "anchors": ["phono3py/phonon3/interaction.py: Interaction._get_all_shortest", "c/real_to_reciprocal.c: real_to_reciprocal_r0_average, real_to_reciprocal_elements"]}
{"id": "C167", "title": "Interaction strengths without the average over the first atom", "statement": "Without the average over the choice of the first atom (make_r0_average=False, --v2), the strength of a three-phonon process does not depend on which of the three phonons is taken for the first, and is the one with the average, at all wave vectors that fit into the supercell; there each element of fc3 in reciprocal space is the Fourier sum over the atoms of the supercell, whichever periodic images are taken.", "quantifier": "all crystals, supercells, lists of shortest vectors, force constants symmetric under permutations and translations, wave vectors that fit into the supercell and add up to a reciprocal lattice vector, frequencies, eigenvectors, bands and orders of the three phonons", "why_tests_cant": "Tests compare conductivities of a few crystals to stored numbers; whether elements depend on the choice of the first atom depends on which wave vectors and which atoms at equal distances occur.", "anchors": ["c/real_to_reciprocal.c: real_to_reciprocal_legacy, get_phase_factor, get_pre_phase_factor", "phono3py/phonon3/interaction.py: Interaction", "phono3py/api_phono3py.py: Phono3py.__init__ (make_r0_average)"]}
{"id": "C168", "title": "Files of triplet contributions hold the contributions of their smearing width", "statement": "A run of `run_thermal_conductivity` in the relaxation time approximation with `write_gamma_detail` writes, for every grid point, every smearing width and all bands together (or every selected band), a file whose array holds the contributions of the triplets stored with it, at the temperatures stored with it, for this grid point, this width and this band. Summed over pairs of bands and, with the weights, over triplets, and averaged over degenerate bands, they give the linewidths of the run, which are those of a run without the option.", "quantifier": "every list of grid points, smearing widths and temperatures, every selection of bands, with linewidths computed or read, every way to obtain the interaction strengths, every state of the self-energy object", "why_tests_cant": "tests use one width; a file of one width filled with another one's contributions shows only when several are given", "anchors": ["phono3py/conductivity/rta.py: ConductivityRTABase._set_gamma_at_sigmas", "phono3py/conductivity/utils.py: ConductivityRTAWriter.write_gamma_detail", "phono3py/file_IO.py: write_gamma_detail_to_hdf5", "phono3py/phonon3/imag_self_energy.py: ImagSelfEnergy._run_c_detailed_with_band_indices_with_g"]}
{"id": "C169", "title": "Interaction strengths written by one run are used by another only where they are right", "statement": "After a run in the relaxation time approximation with `write_pp`, every grid point of the run has a file with its interaction strengths under the name of the last smearing width, and no other file has changed; the linewidths are those of a run without the option. A later run with `read_pp` for any of these grid points, at this width and cutoff and any temperatures, gives the linewidths of a run that calculates the strengths itself; where there is no file of its grid point, width and cutoff it stops. A file of strengths for other bands is never used.", "quantifier": "every list of grid points, smearing widths and temperatures, every cutoff, full or partial strengths, every state of the self-energy object and of the directory, every later run", "why_tests_cant": "tests write and read one file with the same settings in one directory; the order of widths, skipped elements, earlier files and other selections of bands make an unbounded set of histories", "anchors": ["phono3py/conductivity/utils.py: write_pp", "phono3py/conductivity/rta.py: ConductivityRTABase._set_gamma_at_sigmas, get_thermal_conductivity_RTA", "phono3py/file_IO.py: write_pp_to_hdf5, read_pp_from_hdf5", "phono3py/phonon3/interaction.py: Interaction.run, Interaction.set_interaction_strength", "phono3py/phonon3/imag_self_energy.py: ImagSelfEnergy.set_interaction_strength"]}
{"id": "C170", "title": "A spectral function object holds the values of its own settings after every step", "statement": "Iterating over a `SpectralFunction` object (or calling `run`, as `run_spectral_function` does) returns the grid points in order. After `n` steps `half_linewidths`, `shifts` and `spectral_functions` hold, for each of the first `n` grid points and each smearing width, temperature and band, the linewidths calculated for these settings alone, the shifts from these linewidths and the spectral function from both, and zeros for grid points to come; whatever state the object was in when the iteration began, whatever the `Interaction` object was used for between steps, and however the frequency points are divided into batches. Further steps end the iteration and change nothing.", "quantifier": "every list of grid points, smearing widths, temperatures and frequency points, every division into batches, every number of steps, every earlier use of the object, every use of the Interaction object between steps", "why_tests_cant": "a test looks at one complete run with one width; entries put in the place of another width, temperature or step, or state left over from before, show only in other histories", "anchors": ["phono3py/phonon3/spectral_function.py: SpectralFunction, run_spectral_function", "phono3py/phonon3/imag_self_energy.py: run_ise_at_frequency_points_batch", "phono3py/phonon3/real_self_energy.py: imag_to_real", "phono3py/api_phono3py.py: Phono3py.run_spectral_function"]}
{"id": "C171", "title": "Runs for frequency shifts use the smearing widths asked for and write one file for each of them with their own values", "statement": "Phono3py.run_real_self_energy uses the values of epsilons, otherwise the sigmas of the object, otherwise 0.05. It returns one part of the array for each of these widths. With write_hdf5 it writes a file for each grid point and width with the values of all selected bands at all temperatures. With write_txt it writes a file for each width, temperature, grid point and group of bands with the average over the group. Every file holds the values of the grid point, width, temperature and bands in its name. This holds if all widths are numbers and frequencies are sampled. A first sigma None beside others is left out, a later one makes the text files fail after all is calculated, text files at the band frequencies always fail, and the setter of sigmas leaves out elements that are not Python numbers, such as numpy integers.", "quantifier": "every list of widths given to the method or held by the object, every number of grid points and temperatures, every grouping of bands, every choice of outputs, all values of the shifts", "why_tests_cant": "Tests run one width and look at the returned array; the order of nested loops, the position of a group in the array and the handling of None depend on all the lists together.", "anchors": ["phono3py/api_phono3py.py:Phono3py.run_real_self_energy", "phono3py/api_phono3py.py:Phono3py.sigmas", "phono3py/phonon3/real_self_energy.py:get_real_self_energy", "phono3py/phonon3/real_self_energy.py:write_real_self_energy", "phono3py/file_IO.py:write_real_self_energy_at_grid_point"]}
{"id": "C172", "title": "disp_fc3.yaml gives back the displacements written to it", "statement": "write_disp_fc3_yaml followed by parse_disp_fc3_yaml gives the number of atoms, the cutoff distance and all first and second displacements in the same order with their atoms, pair distances and marks of inclusion, up to the digits of the file; the returned numbers are those of all displacements and of the supercells to calculate. This holds if displacements are numbered in order, second atoms come in increasing order, every first displacement has second ones and marks are the same for all displacements of a pair and given for all atoms or none. With displacements numbered in order the writer fails exactly if some second atoms are out of order. A mark given for one second atom is kept for later atoms without one, and a file with a first displacement without second ones cannot be read.", "quantifier": "every dataset with pairs of displacements of any size, all numberings and marks, every rounding by the formats", "why_tests_cant": "The writer groups second displacements by sorted atom while the reader flattens the groups; whether this is the same order, and whether state kept between groups reaches the file, depends on the whole dataset.", "anchors": ["phono3py/file_IO.py:write_disp_fc3_yaml", "phono3py/file_IO.py:parse_disp_fc3_yaml"]}
{"id": "C173", "title": "Expanding and symmetrising the collision matrix in Python gives what the C functions give", "statement": "For every sigma and temperature, the collision matrix over all grid points that the direct solution obtains from rows of irreducible grid points is the same whether it is expanded in Python or by the C function, for every table of rotated grid points and every list of irreducible points. The symmetrised matrix is the same with the C function, with numpy and with the Python loops over all pairs of elements.", "quantifier": "every number of sigmas, temperatures, grid points, bands and rotations, every table and list of points within the grid, all values of the matrix", "why_tests_cant": "The C function computes flat addresses for a six-dimensional array and adds to them in an order different from that of the Python slices; agreement on one crystal does not show that no address is mixed up for other sizes.", "anchors": ["phono3py/conductivity/direct_solution.py:ConductivityLBTEBase._expand_reducible_collisions", "phono3py/conductivity/direct_solution.py:ConductivityLBTEBase._symmetrize_collision_matrix", "c/phono3py.c:ph3py_expand_collision_matrix", "c/phono3py.c:ph3py_symmetrize_collision_matrix"]}
{"id": "C174", "title": "Rotating a grid point gives the point at the rotated address", "statement": "get_grid_points_by_rotations without surface treatment returns, for each rotation, the first listed BZ grid point equivalent to the rotated point; equivalent starting points get the same answer, and an invertible rotation never merges points that are not equivalent. With surface treatment the Python variant succeeds exactly when the rotated address is stored and returns the point that has it, and the C variant then returns the same points. This is to hold for grids with and without a shift.", "quantifier": "every lattice, mesh, unimodular grid matrix, both storage layouts, every BZ grid point and list of rotations", "why_tests_cant": "Rotated addresses on the zone surface depend on lattice, mesh and layout; tests compare few grids, none with a shift.", "anchors": ["phono3py/phonon/grid.py: get_grid_points_by_rotations, _get_grid_points_by_rotations, _get_grid_points_by_bz_rotations_py, get_grid_point_from_address", "c/bzgrid.c: bzg_rotate_grid_index"]}
{"id": "C175", "title": "Integration weights in Python are those of C, and phonons are solved wherever they are read", "statement": "get_triplets_integration_weights gives the same array with lang='Py' and lang='C', with the tetrahedron method and with smearing, for conductivity and for the collision matrix. get_unique_grid_points returns exactly the grid points on the vertices of the tetrahedra around the given points, each once and in order, and solving phonons there is enough: integration weights do not depend on what the arrays hold at other points.", "quantifier": "every lattice, mesh, layout, list of triplets, frequencies, frequency points, bands and smearing width", "why_tests_cant": "Equality is needed for every placement of vertices on the zone surface and every ordering of frequencies, including imaginary ones; tests use one crystal with stable phonons.", "anchors": ["phono3py/phonon3/triplets.py: get_triplets_integration_weights, _set_triplets_integration_weights_py, _get_tetrahedra_vertices", "phono3py/other/tetrahedron_method.py: get_unique_grid_points, get_integration_weights", "c/triplet_iw.c: tpi_get_integration_weight", "c/phono3py.c: ph3py_get_neighboring_gird_points"]}
{"id": "C176", "title": "A conductivity run goes over every class of equivalent grid points once, with the right weights", "statement": "Without given grid points, the points of a conductivity run are such that every grid point is equivalent by symmetry to exactly one of them; the weight of each is its number of equivalent grid points and the weights add up to the number of grid points. With is_kappa_star=False it goes over one point for each grid point, with weight one. Grid points given by the user are run as given, with the number of equivalent grid points as weight (one with is_kappa_star=False), whichever image on the zone surface is given, and giving the automatic points changes nothing. ir_grid_points.yaml lists the points, weights and addresses of the run.", "quantifier": "every lattice, mesh, shift and layout of the grid, every group of rotations compatible with them, every list of given points", "why_tests_cant": "Tests compare weights of a few crystals; the sum over the zone is right only if the partition into classes is exact for every mesh, shift and group.", "anchors": ["phono3py/conductivity/base.py: ConductivityBase._get_grid_info, _get_ir_grid_points", "phono3py/cui/triplets_info.py: write_grid_points, _get_ir_grid_points", "phono3py/file_IO.py: write_ir_grid_points", "phono3py/phonon/grid.py: BZGrid.grg2bzg, get_ir_grid_points"]}
{"id": "C177", "title": "fc3 is the same with and without the C library", "statement": "When the compiled library cannot be imported, solving fc3 of a displaced atom and distributing it to equivalent atoms gives the same array, and fails in the same cases, as with the library, for full and compact arrays.", "quantifier": "every supercell, set of symmetry operations, displacements, changes of fc2 and content of memory", "why_tests_cant": "Tests run with the library compiled, so the other branch is never executed; equality has to hold for every array and every set of rotations.", "anchors": ["phono3py/phonon3/fc3.py: distribute_fc3, _third_rank_tensor_rotation, _solve_fc3, _get_rotated_fc2s", "c/fc3.c: fc3_distribute_fc3, fc3_rotate_delta_fc2"]}
{"id": "C178", "title": "Symmetry used to choose second displacements is exactly what the first displacement leaves", "statement": "When displacements of pairs of atoms are generated and when fc3 is solved from them, the rotations used for the second atom are exactly those of the site symmetry of the first atom that keep the direction of the first displacement and bring the second atom to itself up to a lattice translation; both sets of rotations are groups.", "quantifier": "every lattice, list of positions, site symmetry, pair of atoms, direction of integers and tolerance", "why_tests_cant": "A set of rotations that is not a group gives too few displacements or wrong force constants for particular positions close to symmetry elements; tests use a few ideal crystals.", "anchors": ["phono3py/phonon3/displacement_fc3.py: get_reduced_site_symmetry, get_bond_symmetry, get_third_order_displacements, _get_next_displacements", "phono3py/phonon3/fc3.py: _get_constrained_fc2"]}
{"id": "C179", "title": "Cells a run on the command line uses, and what its check against a yaml file assures", "statement": "A run starts with the unit cell of the file in angstrom, with the supercell for fc3 made from it and with a supercell for fc2 made with the matrix of the command, else that of the yaml file, else the supercell for fc3. It does not start when these supercells are not close to those in the yaml file or when primitive cells differ; a file that agrees with its own unit cell is always accepted. The check does not detect a wrong unit of length.", "quantifier": "every structure, yaml file, matrices, unit of length and options", "why_tests_cant": "The combinations of options, contents of a yaml file and units are unbounded; tests run a few commands with VASP files.", "anchors": ["phono3py/cui/phono3py_script.py: get_input_output_filenames_from_args, get_cell_info, check_supercell_in_yaml, init_phono3py", "phono3py/api_phono3py.py: Phono3py.__init__, Phono3py._build_phonon_supercell, Phono3py._build_phonon_primitive_cell"]}
{"id": "C180", "title": "Files of thermal conductivity hold what was calculated, and conductivities follow from them", "statement": "Every quantity handed to the writer of kappa-*.hdf5 is found under its documented name and nothing else is in the file; band numbers are counted from one. For a run for all bands in the relaxation time approximation, contributions of modes in the file are kappa_unit_conversion * heat_capacity * gv_by_gv / (2 * linewidth) of the same file, and the conductivity is their sum divided by the sum of weights.", "quantifier": "every list of arguments given or left out, every array, sigma, temperature, grid point, band and component", "why_tests_cant": "Users post-process these files with all combinations of isotope and boundary scattering, smearing and grids; tests compare a few conductivities and do not recalculate them from files.", "anchors": ["phono3py/file_IO.py: write_kappa_to_hdf5", "phono3py/conductivity/utils.py: ConductivityRTAWriter.write_kappa", "phono3py/conductivity/rta.py: ConductivityRTA.set_kappa_at_sigmas", "doc/hdf5_howto.md"]}
{"id": "C181", "title": "Memory requirements shown are those of the arrays a run makes", "statement": "The memory shown for phonons, for interaction strengths of a grid point and for a piece of the collision matrix is the memory of the arrays; the memory shown for the full collision matrix, times numbers of sigmas and temperatures, is that of the collision matrix.", "quantifier": "every number of grid points, bands, selected bands, triplets, sigmas and temperatures", "why_tests_cant": "Figures are only printed; no test compares them with sizes of arrays, and they must hold for meshes much larger than any test can run.", "anchors": ["phono3py/cui/triplets_info.py: write_grid_points, show_num_triplets", "phono3py/conductivity/direct_solution.py: ConductivityLBTEBase._allocate_ir_colmat_values, ConductivityLBTEBase._allocate_reducible_colmat_values", "phono3py/phonon3/collision_matrix.py: CollisionMatrix.run", "phono3py/phonon3/interaction.py: Interaction._allocate_phonon, Interaction.run"]}
