# Design

Formal model of phonopy/phono3py in Lean 4. The source under study is `/repo`
(read as text, never run). Nothing here executes or links the real code.

## Layout

* `lean/Verif/Model/*.lean`  definitions mirroring the code, each citing file and lines.
* `lean/Verif/Spec/*.lean`   small independent specifications used in theorem statements.
* `lean/Verif/Lemmas/*.lean` helper lemmas.
* `lean/Verif/Props/*.lean`  the property theorems (`Cnn_...`), with non-vacuity `example`s beside them.
* `properties.jsonl` the properties, `MANIFEST.json` the theorems of each, `AXIOMS.txt` the axioms of each
  theorem as printed by Lean, `seeded/LOG.jsonl` wrong programs tried against the theorems.

## Modelling conventions

* `int64_t` is `Int` or `Nat`: overflow is not modelled.
* C `/` and `%` truncate toward zero: `Int.tdiv`, `Int.tmod`. Python `//`, `%` floor: `Int.fdiv`, `Int.fmod`.
* `double` is an arbitrary (linearly ordered) field, the rationals or the reals: rounding is not modelled.
  Comparisons, tolerances and rounding to integers in the code are modelled as written, in exact arithmetic.
* exp, sin, cos, sqrt, sinh are function parameters, constrained only by the laws a theorem states; theorems that need
  them take the laws as hypotheses and an instance over the reals is given beside them.
* An array is a `List` or a function from indices; out-of-range access in C is undefined behaviour and is
  excluded by stated range facts, which are proved for the calls that occur.
* malloc'ed memory is a function parameter `mem` with arbitrary values.
* In-place loops are folds over lists of stores. OpenMP loops are store lists whose result is proved independent of
  the order of the stores where the claim is about scheduling.
* Errors (return 0, raise, unbound variable) are `none`.
* Objects with methods are transition systems; histories are lists of calls, with failing calls where the code can fail.
* Files are finite maps from names to contents. Text formats are modelled at the level of lines and numbers, binary
  formats (hdf5) as arrays by key.

## Trusted base

* Lean's kernel, and the axioms `propext`, `Classical.choice`, `Quot.sound`. `AXIOMS.txt` lists the axioms of every
  theorem of `MANIFEST.json`, made with `#print axioms`. No other axiom, no `sorry`, no compiled evaluation.
* The reading of the C and Python source into the definitions under `Model/`.
* The behaviour assumed for numpy, h5py, LAPACK, spglib and phonopy calls, named at each definition: eigenvalue and
  singular value routines return a correct decomposition, `np.unique` sorts and removes duplicates, `degenerate_sets` is a
  partition, shortest vectors and primitive/supercell maps are consistent with the crystal.

## Modelled code

Ranges of lines cited by the definitions of the model, merged. What a definition leaves out inside its range is said in its
comment (mostly logging, timing, argument checks that only print, and numpy dtype conversions).

| file | lines | modelled | modules |
|---|---|---|---|
| `c/bzgrid.c` | 353 | 46-73, 94-134, 136-152, 154-212, 214-243, 245-259, 261-301, 303-325, 327-349, 351-353 | BZGrid, Vec |
| `c/collision_matrix.c` | 342 | 104, 123, 127-154, 156-215, 217-241, 302-308, 310-317, 325-342 | Collision |
| `c/dynmat.c` | 777 | 226-257, 259-308, 310-394, 396-431, 471-507, 509-545, 547-559, 561-632, 634-659, 661-679, 681-723 | DynMat |
| `c/dynmat.h` | 86 | 44-46, 68-72 | DynMat |
| `c/fc3.c` | 558 | 61-74, 76-90, 92-123, 125-142, 154-190, 192-211, 213-220, 222-241, 243-297, 299-402, 404-514, 516-557 | Fc3, Fc3Solve, Writes |
| `c/funcs.c` | 54 | 45-50 | Isotope, SelfEnergy |
| `c/grgrid.c` | 432 | 45, 72-98, 108-137, 192-198, 237-295, 297-303, 305-313, 319-328, 330-346, 349-365, 369-377, 381-389, 391-400, 405-432 | Grid, Snf, Transform, Vec |
| `c/gridsys.c` | 315 | 50, 118-175, 218-251 | Niggli, Triplet |
| `c/imag_self_energy_with_g.c` | 475 | 71-156, 158-220, 222-296, 298-320, 330-355, 357-400, 402-452, 454-475 | SelfEnergy |
| `c/interaction.c` | 281 | 49-62, 113-184, 186-223, 225-281 | Interaction |
| `c/isotope.c` | 230 | 44-128, 130-230 | Isotope |
| `c/lagrid.c` | 253 | 39-43, 45-49, 63-73, 75-86, 88-97, 99-115, 117-138, 140-152, 154-164, 166-176, 178-200, 232-239, 241-246, 248-253 | Niggli, Transform, Vec |
| `c/lapack_wrapper.c` | 293 | 61-70, 206-293 | Collision, Complex |
| `c/lapack_wrapper.h` | 91 | 42-45 | Complex |
| `c/niggli.c` | 553 | 42, 44-57, 119-173, 175-216, 245-258, 260-306, 308-318, 320-330, 344-369, 371-421, 423-440, 442-459, 461-478, 480-491, 493-511, 513-530, 532-553 | Niggli |
| `c/phono3py.c` | 732 | 403-436, 486-512, 514-586, 607-641, 650-703 | Collision, Kaccum, Triplet, WeightsPy, Writes |
| `c/phonon.c` | 462 | 101-128, 162-178, 198-214, 222-237, 261-276, 285-300, 302-373, 375-402, 404-443, 445-462 | DynMat, PhononRotation, PhononSolver |
| `c/pp_collision.c` | 295 | 67-137, 139-208, 210-253, 255-295 | Lowmem, PPCollision |
| `c/real_self_energy.c` | 228 | 61-86, 88-110, 112-155, 157-204, 206-228 | RealSelfEnergy |
| `c/real_to_reciprocal.c` | 399 | 79-141, 143-181, 189-270, 272-345, 349-368, 370-391, 393-399 | Complex, Interaction |
| `c/recgrid.c` | 254 | 71-74, 108-123, 125-160, 193-222 | BZGrid, Grid, Niggli |
| `c/recgrid.h` | 295 | 76-86 | BZGrid |
| `c/reciprocal_to_normal.c` | 316 | 74-198, 275-315 | Complex, Interaction |
| `c/snf3x3.c` | 651 | 56-89, 91-111, 113-118, 120-146, 148-154, 156-165, 167-177, 179-196, 198-203, 205-226, 228-238, 240-250, 252-262, 264-291, 293-305, 307-318, 320-331, 333-347, 349-365, 371-394, 396-419, 436-447, 449-464, 466-470 | Snf, Vec |
| `c/tetrahedron_method.c` | 1456 | 72-75, 77-662, 722-737, 755-763, 765-788, 790-825, 827-894, 896-913, 915-931, 933-945, 947-995, 997-1045, 1047-1068, 1070-1091, 1097-1101, 1104-1111, 1114-1118, 1127-1131, 1134-1139, 1142-1146, 1153-1170, 1172-1270, 1272-1340, 1346-1363, 1365-1435, 1437-1454 | Tetrahedron |
| `c/triplet.c` | 160 | 65-92, 94-115, 117-133, 135-160 | IntegrationWeight, SelfEnergy |
| `c/triplet_grid.c` | 519 | 83-105, 114-148, 150-195, 197-216, 218-254, 285-339, 370-404, 407-419, 421-434, 437-485 | Triplet, Vec |
| `c/triplet_iw.c` | 350 | 66-133, 135-194, 208-222, 224-253, 264-281, 283-296, 298-323, 325-350 | IntegrationWeight |
| `phono3py/api_isotope.py` | 164 | 104-139 | IsotopeObject |
| `phono3py/api_jointdos.py` | 317 | 78-118, 148-159, 161-181, 196-291 | FileName, JdosObject |
| `phono3py/api_phono3py.py` | 2718 | 215-301, 330-442, 582-1222, 1225-1622, 1696-1750, 1752-1855, 1952, 2066, 2105-2180, 2240-2245, 2247-2250, 2252-2273, 2387-2389, 2391-2421, 2424-2460, 2462-2496, 2513-2530, 2532-2545, 2568-2597, 2600-2625, 2638-2649, 2651-2678, 2687-2692, 2704-2719 | ApiData, ApiPhonon, Bands, CreateSupercells, Dataset, FcCalculator, FileName, InitRun, LoadForces, MlpRun, ReadFc3, ShiftFiles, StoredSelect, YamlDatasets |
| `phono3py/conductivity/base.py` | 940 | 53-55, 88-115, 237, 240-248, 262-391, 396-408, 515-518, 545-551, 697-728, 773-792, 805-819, 821-846, 848-871, 886-910 | Conductivity, DirectRun, GridInfo, IseObject, IsotopeObject, KappaDatasets, RtaRun, StoredGamma, WignerLBTE |
| `phono3py/conductivity/direct_solution.py` | 1957 | 221-236, 245-273, 315-541, 543-568, 572-577, 579-592, 594-603, 605-634, 636-655, 657-694, 696-817, 819-896, 898-908, 910-922, 924-948, 968-991, 1007-1034, 1052-1092, 1094-1137, 1139-1152, 1154-1164, 1199-1233, 1350-1393, 1496-1554, 1630-1643, 1645-1693, 1695-1838, 1841-1957 | Collision, DirectRun, ExpandPy, IseObject, LBTE, MemoryShown, StoredSelect, WignerLBTE |
| `phono3py/conductivity/kubo.py` | 155 | 144-153 | Velocity |
| `phono3py/conductivity/rta.py` | 1121 | 70-124, 167-194, 196-314, 342-457, 583-625, 627-661, 714-804, 836-844, 910-952, 1005-1121 | Conductivity, GammaDetail, IseObject, KappaDatasets, Lowmem, PpRuns, RtaRun, WignerLBTE |
| `phono3py/conductivity/utils.py` | 1252 | 82-216, 218-345, 348-400, 409-487, 517-598, 628-633, 679-714, 717-841, 958-1127, 1130-1166, 1199-1208, 1243-1252 | DirectRun, GammaDetail, KappaDatasets, LBTE, PpRuns, RtaRun, StoredGamma, StoredSelect, WignerLBTE |
| `phono3py/conductivity/wigner.py` | 222 | 102-212, 215-222 | Velocity, WignerLBTE |
| `phono3py/cui/create_force_constants.py` | 781 | 80-93, 96-216, 219-307, 310-338, 341-365, 368-397, 433-471, 520-622, 679-717, 729-759, 772-781 | Dataset, FcCalculator, LoadForces, MlpRun, PairCutoff, ReadFc3 |
| `phono3py/cui/create_force_sets.py` | 515 | 69-182, 185-259, 262-345, 348-449, 459-488, 490-513 | ConvertForces, CreateForceSets |
| `phono3py/cui/create_supercells.py` | 180 | 50-181 | CreateSupercells, Dataset |
| `phono3py/cui/kaccum_script.py` | 482 | 20-35, 38-49, 52-62, 93, 102-126, 129-153, 156-224, 245-309, 318-357, 360-418, 421-482 | KaccumScript |
| `phono3py/cui/load.py` | 690 | 76-80, 85, 199-206, 323-385, 387-396, 398-400, 437-504, 507-557, 560-571, 574-621, 647-670 | FcCalculator, LoadForces, MlpRun |
| `phono3py/cui/phono3py_argparse.py` | 931 | 53-930 | Settings |
| `phono3py/cui/phono3py_script.py` | 1383 | 186-211, 216-218, 255-298, 307-516, 519-535, 538-588, 591-676, 692-1378 | CommandRun, CreateSupercells, FcCalculator, InitRun, LoadForces, MlpRun, Settings |
| `phono3py/cui/settings.py` | 1104 | 113-372, 379-395, 397-668, 670-838, 840-1104 | Settings, StoredSelect |
| `phono3py/cui/triplets_info.py` | 169 | 48-139, 154-165 | GridInfo, MemoryShown |
| `phono3py/file_IO.py` | 1797 | 58-186, 191-254, 257-300, 323-327, 330-356, 384-399, 503-536, 549-559, 569-601, 604-656, 749-780, 893-1038, 1071-1162, 1196-1218, 1220-1254, 1286-1350, 1352-1403, 1444-1507, 1510-1605, 1608-1625, 1628-1660, 1684-1700, 1703-1733, 1735-1738, 1763-1777 | CommandRun, ConvertForces, CreateForceSets, Dataset, DirectRun, DispYaml, FileName, GammaDetail, GridInfo, KappaDatasets, LoadForces, PpFile, PpRuns, ReadFc3, RtaRun, ShiftFiles, SpectralOutput, StoredGamma, StoredSelect |
| `phono3py/interface/calculator.py` | 94 | 57-65 | CreateSupercells |
| `phono3py/interface/fc_calculator.py` | 247 | 93, 108-133, 137-160 | FcCalculator |
| `phono3py/interface/phono3py_yaml.py` | 636 | 99, 118-221, 223-286, 344-363, 456-543, 546-600 | ConvertForces, CreateSupercells, Phono3pyYaml, YamlDatasets |
| `phono3py/other/isotope.py` | 406 | 60-88, 94-151, 153-240, 242-276, 341-369, 371-383 | Isotope, IsotopeObject |
| `phono3py/other/kaccum.py` | 343 | 52-62, 97-139, 156-189, 195-260, 263-344, 347-352 | Kaccum, KaccumScript |
| `phono3py/other/tetrahedron_method.py` | 201 | 43-88, 91-176 | Kaccum, WeightsPy |
| `phono3py/phonon/func.py` | 105 | 37, 46-65, 68-106 | Sscha |
| `phono3py/phonon/grid.py` | 1242 | 142-232, 276-281, 418-423, 428-445, 447-469, 471-512, 514-522, 577-581, 635-698, 700-731, 733-767, 791-802, 804-855, 858-869, 911-935, 938-1051, 1078-1223, 1226-1242 | Grid, GridInfo, GridObject, MemoryShown, Niggli, PhononRotation, RotatePoints |
| `phono3py/phonon/group_velocity_matrix.py` | 214 | 144-146, 148-151, 161-186 | Velocity |
| `phono3py/phonon/heat_capacity_matrix.py` | 81 | 41-81 | Velocity |
| `phono3py/phonon/solver.py` | 259 | 42-183, 220, 244-259 | ApiPhonon, DynMat, PhononSolver |
| `phono3py/phonon/velocity_operator.py` | 234 | 132-159, 176-202, 204-234 | Velocity |
| `phono3py/phonon3/collision_matrix.py` | 319 | 107-117, 188-218, 220-248, 250-307, 309-318 | Collision, MemoryShown, SelfEnergyPy |
| `phono3py/phonon3/dataset.py` | 124 | 67-106, 118-124 | ApiPhonon, Dataset, LoadForces |
| `phono3py/phonon3/displacement_fc3.py` | 402 | 49-130, 133-297, 300-328, 330-379, 382-391, 394-402 | BondSymmetry, Dataset, DeltaFc2, Orbits, Phono3pyYaml |
| `phono3py/phonon3/fc3.py` | 857 | 63-170, 173-249, 260-265, 293-300, 317-320, 323-347, 356-371, 374-760, 763-769, 772-778, 781-844 | DeltaFc2, Fc3, Fc3Py, Fc3Solve, PairCutoff, ReadFc3, ShowDrift |
| `phono3py/phonon3/gruneisen.py` | 494 | 127-171, 173-303, 305-334, 336-345, 347-372, 374-400, 402-423, 425-440, 442-462, 464-472, 474-494 | Gruneisen, GruneisenRun |
| `phono3py/phonon3/imag_self_energy.py` | 1084 | 78-98, 105-396, 398-424, 426-446, 486-523, 525-529, 713-770, 793-870, 873-915, 931-967, 989-999, 1010-1024, 1046-1051, 1059-1071, 1074-1084 | Bands, GammaDetail, IseObject, IseRoutines, IseRuns, Lowmem, PpRuns, RealSelfEnergy, SelfEnergyPy, SpectralObject |
| `phono3py/phonon3/interaction.py` | 1094 | 92-204, 208-217, 396-405, 516-527, 580-634, 653-658, 667-752, 754-897, 907-922, 932-976, 978-990, 992-1013, 1028-1047, 1049-1084, 1087-1094 | AllShortest, ApiPhonon, DirectRun, InteractionPy, IseObject, IseRoutines, MemoryShown, PhononRotation, PhononSolver, PpRuns, RtaRun, StoredGamma |
| `phono3py/phonon3/joint_dos.py` | 452 | 58-119, 241-266, 268-291, 293-314, 316-326, 328-378 | JdosObject, SelfEnergyPy |
| `phono3py/phonon3/real_self_energy.py` | 720 | 74-118, 120-133, 135-141, 143-167, 174-182, 193-198, 233-247, 249-264, 266-285, 287-307, 309-344, 346-368, 374-401, 422-437, 439-453, 455-469, 543-550, 557, 596-664, 671-713, 716-720 | RealSelfEnergy, ShiftFiles |
| `phono3py/phonon3/real_to_reciprocal.py` | 122 | 70-84, 86-100, 106-121 | InteractionPy |
| `phono3py/phonon3/reciprocal_to_normal.py` | 108 | 78-88, 90-108 | InteractionPy |
| `phono3py/phonon3/spectral_function.py` | 391 | 118-174, 180-212, 220-224, 226-260, 262-275, 292-307, 309-363, 365-372, 374-391 | RealSelfEnergy, SpectralObject, SpectralOutput |
| `phono3py/phonon3/triplets.py` | 424 | 51-116, 135-146, 148-231, 324-327, 373-432 | IseObject, IseRoutines, SelfEnergyPy, Triplet, WeightsPy |
| `phono3py/sscha/sscha.py` | 564 | 116-124, 126-127, 200-231, 407-445, 528-538, 540-544, 546-564 | Sscha |

## Code that is not modelled

* Floating-point rounding, integer overflow, memory allocation failure, threads below the level of stores.
* LAPACK and BLAS calls (`c/lapack_wrapper.c` except the pseudo-inverse rule and complex arithmetic), the BLAS variant of
  the interaction strength, FFT.
* Bindings (`c/_phono3py.cpp`, `c/_phononcalc.cpp`, `c/_recgrid.cpp`): array sizes and types are assumed as the Python
  callers pass them.
* Command line (`phono3py/cui`) except the choice and storing of force constants, interfaces to force calculators, the text of yaml files, plotting scripts.
* phonopy itself: symmetry search, primitive cells, displacement directions, non-phono3py force constants solvers.


Files with no definition in the model: `c/phononcalc.c`, `phono3py/cui/show_log.py`, `phono3py/interface/wien2k.py`, `phono3py/scripts/phono3py.py`, `phono3py/scripts/phono3py_coleigplot.py`, `phono3py/scripts/phono3py_kaccum.py`, `phono3py/scripts/phono3py_kdeplot.py`, `phono3py/scripts/phono3py_load.py`, `phono3py/version.py`.

## Plan per property

* **C01** (proved) Grid-point index and address are mutually inverse. Model/Grid.lean: V3/M3 over Int, C truncating `/` and `%` as Int.tdiv/Int.tmod. Proof: omega plus nonlinear division lemmas.
  Outcome: All meshes, all indices and addresses.
* **C02** (proved) Addresses that differ by a mesh translation, and only those, share a grid point. Same model; Python floor-mod as Int.fmod. Proof from uniqueness of mixed-radix digits.
* **C03** (proved) A mesh-compatible rotation permutes the grid points. rotate_grid_index modelled with doubled addresses. Compatibility predicate = R_ij D_j divisible by D_i, and R PS = PS mod 2. Group-action law proved, permutation follows.
  Outcome: MeshCompat/ShiftCompat/unimodular hypotheses; C03_shift_check_sound ties the shift condition to the run-time check; C03_shift_condition_needed shows the hypothesis cannot be dropped.
* **C04** (proved) The irreducible grid map picks the smallest member of every symmetry orbit. get_ir_grid_map modelled as fold writing an array; abstract lemma over any finite group action on [0,N), then instantiated by C03.
  Outcome: Hypothesis: the operations form a group compatible with mesh and shift.
* **C05** (proved) Irreducible weights count every grid point exactly once. np.unique/where/bincount modelled on lists; counting lemma.
* **C06** (proved) The reciprocal point group is complete, duplicate-free and closed under inversion. List model with 48 cap, error as none. Induction over the input list.
* **C07** (proved) Rotations transformed to the generalized grid are exact and mesh-compatible. Exact rationals, Nint as in lagrid.h. Algebra on 3x3 matrices.
  Outcome: Float tolerance modelled in exact rational arithmetic.
* **C08** (proved) Smith normal form of a grid matrix is a correct factorisation. Whole snf3x3.c modelled on Int; invariant P*A*Q^T = current matrix, unimodular steps; diagonal and positivity from the exit tests.
  Outcome: The docstring promise of a Smith normal form is refuted by C08_not_always_smith; the P,D,Q properties used by the grid are proved. C08_succeeds bounds |det| below 2^49 because the gcd loop is capped.
* **C09** (proved) Every Brillouin-zone grid point is a translate of the grid point it is filed under. bz grid builders modelled with an arbitrary distance function over an ordered field; addresses congruence by construction of set_bz_address.
  Outcome: Hypothesis: positive mesh and non-zero reciprocal lattice (then the computed tolerance is positive).
* **C10** (proved) The dense grid-point map cuts the BZ grid into non-empty consecutive blocks, one per grid point. Fold invariants over the grid-point loop (type 2).
* **C11** (proved) The sparse layout stores one BZ point per grid point first and the surface copies after. Fold invariants over the grid-point loop (type 1).
* **C12** (proved) Both BZ-grid layouts hold the same set of addresses. Both builders related to the same per-point list of images.
* **C13** (proved) BZ images are the nearest ones, and distinct. Selection lemma for the tolerant minimum; injectivity of unimodular Qinv.
  Outcome: Nearest among the 125 searched translates, as the property says; qNorm/Searched/tolerance are specified independently in Spec/BZGrid.lean.
* **C14** (partial) Rotating a BZ grid point returns the BZ point with the rotated address. Lookup loop as List.find?; fallback branch modelled.
  Outcome: Proved when the rotated address is stored (both layouts) and in all cases for the dense layout. Refuted for the sparse layout when it is not stored: C14_sparse_fallback_wrong (inversion on an orthorhombic lattice). C14_rotation_exact: on a grid without shift that holds the nearest translates and whose surface is not decided by rounding (SurfaceSeparated; separated_of_metric gives such grids), the rotated address is stored for every compatible isometry, so rotation by index is exact in both layouts.
* **C15** (partial) Triplets conserve crystal momentum. Loop over image combinations as fold with early exit; result is one of the combinations, whose addresses are congruent.
  Outcome: Proved for every grid point in the dense layout and for regular grid points in the sparse layout, for an arbitrary lattice in the search structure. C15_sparse_surface_point is a counterexample for a surface copy in the sparse layout (pointer table read past its end).
* **C16** (proved) Triplet weights account for every q1 exactly once. np.unique with counts on the triplet map; same counting lemma as C05.
  Outcome: All assertions of get_triplets_at_q shown to hold; weights, order, classes; also without mesh symmetry.
* **C17** (proved) Triplets are identified exactly by little-group rotation and q1-q2 exchange. perm_q1q2 pass modelled; abstract lemma on an involution commuting with a group action.
  Outcome: Group includes time reversal as specified by withTimeReversal; both the triplet map and the q1 map.
* **C18** (partial) Triplets avoid umklapp whenever possible and otherwise minimise |G|. Early exit gives first half; the second half fails (get_LQD_inv overwrites): negation by witness, partial theorem with the metric the code really uses.
  Outcome: First half proved; second half only for the quantity the code computes. C18_not_shortest refutes the English claim: get_LQD_inv overwrites instead of accumulating.
* **C19** (proved) Tetrahedron tables tile the cube around a grid point. Tables copied literally; decide over the whole finite table; diagonal choice by comparison lemma.
* **C20** (proved) Vertex sorting in the tetrahedron method is a sorted permutation that tracks the centre. Sorting network modelled branch by branch over a linear order.
* **C21** (partial) Tetrahedron weights are non-negative and complete. Rational functions over a linear ordered field; field_simp/ring, positivity.
  Outcome: C21_monotone_partial: monotone in the frequency away from the vertex frequencies of a tetrahedron and where no vertex gap lies below the threshold of the code. Missing because false: C21_not_monotone, C21_threshold_loss.
* **C22** (partial) The integrated tetrahedron density is continuous at vertex frequencies and is the derivative of the number of states. Mathlib derivative of the rational functions over the reals.
  Outcome: C22_limit_partial: the density is the limit of difference quotients inside each interval between vertex frequencies. Missing because false: C22_zero_at_vertices, C22_not_continuous.
* **C23** (proved) Outside the frequency window the tetrahedron weight vanishes, so it may be skipped. thm_in_tetrahedra and weight sum modelled as folds.
* **C24** (proved) Smearing weights flagged zero are really below the cutoff. Decision logic of with_sigma.
* **C25** (proved) Skipping zero-weight interactions does not change the linewidth. Finite sums; zero entries drop out.
* **C26** (proved) Normal and Umklapp parts add up to the total linewidth. Finite sums; partition by is_N.
* **C27** (proved) Detailed linewidths integrate back to the linewidth. Finite sums; reordering.
* **C28** (proved) Averaging over degenerate bands preserves the sum and is idempotent. Block averages on lists.
  Outcome: The sets returned by phonopys degenerate_sets are a parameter, assumed to cover the selected bands without overlap.
* **C29** (proved) Frequency points are processed in batches that cover each point once, in order. np.arange/array_split style slicing modelled on Nat; induction.
  Outcome: Batches, and independence of the sampled self-energies from the batch size for both integration methods. A negative batch size yields no batch and is not rejected (C29_negative_size).
* **C30** (proved) Self-energy files average each selected band group over its own bands. Running offset modelled; list slicing lemma.
  Outcome: For values listed in the order of the flattened selection.
* **C31** (proved) Permutation symmetrisation of third-order force constants is a projection. In-place update over i<=j<=k as a fold of pointwise writes; orbits of S3 on index triples are disjoint.
  Outcome: Full and compact arrays: value, frame, symmetry, idempotence, order independence, and agreement of the compact with the full result.
* **C32** (partial) Transposition of compact fc3 is consistent with the full array and undoes itself. transpose_compact loops modelled with done flags; translation tables as hypotheses.
  Outcome: Type 2 is proved without condition, types 0 and 1 when no lattice translation of the supercell has order two between the atoms (true for odd supercells). C32_not_transposed shows that the code does not transpose pairs of atoms related by a half translation.
* **C33** (partial) Translational-invariance correction removes the drift. Finite sums in a field of characteristic 0.
  Outcome: Full arrays: all three sums vanish. Compact arrays: second and third index proved; the first index only without half translations (C33_compact_drift_left is a counterexample).
* **C34** (proved) Distributing fc3 to symmetry-equivalent first atoms rotates every tensor index. Tensor contraction as finite sums.
  Outcome: In-place C routine, choice of operation and both expansions of get_fc3 (full, compact). The Python fallback (used only when the C library is missing) writes row i_target instead of the compact row and is not modelled.
* **C35** (proved) Symmetrising the collision matrix yields a symmetric matrix with unchanged diagonal and trace. In-place loop as fold over pairs k<l.
  Outcome: In-place symmetrisation of all blocks, any schedule.
* **C36** (proved) Expanding the collision matrix from irreducible points preserves symmetry-summed content. Fold with += over rotations.
  Outcome: Expansion from irreducible grid points for group actions; C36_grid shows that the tables of rotated grid points are such actions.
* **C37** (proved) The pseudo-inverse cuts off eigenvalues by the documented rule. Rule on eigenvalues and matrix algebra.
  Outcome: Value, Penrose conditions on the kept modes, agreement of the C and the numpy paths.
* **C38** (proved) Triplet lookup from a grid point finds the triplet that contains it and detects exchange. Maps from Model/Triplet.lean.
  Outcome: For every triplet search result; C lookup and Python map agree and the Python assertions never fail. In the sparse layout the grid point must be a regular one (C15).
* **C39** (proved) Isotope scattering rates are non-negative. Both C routines as store lists; Tamura's formula in Spec/Isotope.lean; sums of non-negative terms.
  Outcome: Both C routines (smearing, tetrahedron) return Tamura's formula for every schedule; non-negative, zero below the cutoff and without mass variances, independent of phases and of the choice of degenerate eigenvectors of partners; mass variances. Findings about the Python implementation: C39_python_band_index, C39_python_cutoff.
* **C40** (proved) Ph-ph interaction strengths are non-negative and vanish below the frequency cutoff. |.|^2 non-negative, guard.
  Outcome: Strengths equal the textbook formula at every unflagged entry; non-negativity (both variants) and cutoff follow. The BLAS variant is not modelled.
* **C41** (proved) The conductivity iteration visits every grid point exactly once. Transition system of the iterator with crash points; invariant by induction over the history.
  Outcome: Iterator model with crash points: order, stop, stays stopped, results per point after any history.
* **C42** (proved) The linewidth on the main diagonal is the sum of the enabled scattering channels. Decision logic.
  Outcome: Value of the main diagonal for all channel combinations; finding C42_band_subset: boundary_mfp with a subset of bands raises IndexError.
* **C43** (partial) Cumulative conductivity ends at the total and grows with frequency for non-negative contributions. Sums over modes below a frequency.
  Outcome: Total above all modes, equality with the RTA conductivity, zero start, sign and index map proved for every BZ grid; monotone only for regular tetrahedra (over the reals), and C43_not_monotone shows a drop at sampling points that are mesh frequencies.
* **C44** (proved) Interaction strengths written to file are read back unchanged. packbits/unpackbits on List Bool; round trip.
  Outcome: Round trip proved for every size, shape and mask: strengths at unset positions, zero elsewhere, and the mask (as zeros and ones; the mask itself when it consists of zeros and ones, as the code produces). HDF5 storage is taken to return what was stored.
* **C45** (proved) FORCES_FC3 read after write gives each displaced supercell its own forces. Line-level writer and parser over an abstract number format.
  Outcome: C45_round_trip (forces given to the writer), C45_stored (forces in the dataset), C45_truncated, C45_missing_forces. shown is the value printed with ten decimals and read back.
* **C46** (partial) FORCES_FC2 read after write is the identity on type-1 datasets and fails visibly otherwise. As C45.
  Outcome: C46_round_trip; C46_short_file_partial: a short file makes the parser return [] and store nothing. It raises no exception, and C46_reader_silent proves that the reader of the command line takes it as success.
* **C47** (partial) Output file names identify the calculation. String model of the suffix, decimal printing defined from digits; injectivity by parsing the suffix back; negations by witness.
  Outcome: Proved: with the same user string and meshes of equal digit counts, equal names imply equal mesh, grid point, bands, and sigma/cutoff/temperature equal to within 1e-6 (C47_distinct_partial). Refuted in general: meshes 1x11x1 and 11x1x1 share a name (C47_mesh_collision), sigmas that round alike share a name (C47_sigma_collision); a cutoff without sigma is not in the name (C47_cutoff_ignored).
* **C48** (proved) Displacement ids are consecutive and unique, single displacements first. Nested counters as folds.
  Outcome: C48_ids, C48_requested, C48_supercells, C48_files, C48_total.
* **C49** (partial) Type-1 datasets convert to displacement-force arrays without mixing rows. Nested loops as folds; negation by witness for same-atom pairs.
  Outcome: C49_rows_partial and C49_no_forces_partial for datasets without pairs on one atom; false in general: C49_same_atom (a pair on one atom shows only the second displacement), C49_some_forces (assertion fails when excluded pairs have no forces), C49_getter_drops_first (the displacements property drops the first displacement of every pair).
* **C50** (partial) Setting forces and reading them back is the identity. Setter/getter folds with running counts.
  Outcome: C50_round_trip, C50_phonon_round_trip, C50_type2, C50_too_few; wrong numbers are not rejected in C50_extra_ignored, C50_phonon_short, C50_type2_unchecked.
* **C51** (partial) Changing the NAC direction never mixes Gamma-point phonons of different directions. Transition system; invariant by induction; negation by witness for the two defects.
  Outcome: C51_gamma: the phonons stored at Gamma after a run are those of the direction in force; C51_history_partial: holds along every history of set-direction / set-grid-point / run operations under the stated conditions. Negations with witnesses: C51_silent_direction (a direction set after the grid point is silently not applied), C51_wang_direction (Wang NAC uses the direction away from Gamma), C51_refused_plain, C51_refused_restored and C51_no_symmetry (valid histories refused), C51_stale_gamma (init_dynamical_matrix called twice keeps old Gamma phonons).
* **C52** (proved) Each phonon is solved once and cached results are never overwritten. Fold over request lists with done flags.
  Outcome: C52_collected: the list of undone grid points is duplicate free and exactly the requested ones not done; C52_first_request, C52_request: values are those of the solver at the first request and never change afterwards.
* **C53** (partial) Externally supplied phonons are accepted only for the same grid. Decision logic; negation by witness (all instead of any).
  Outcome: The check aggregates with all() of component inequality, so C53_other_grid_accepted exhibits a different grid that is accepted; C53_refused_partial: arrays of another length, or differing in every component, are refused; C53_same_grid: equal addresses are accepted.
* **C54** (partial) All temperatures given for joint DOS are written. Loop with early return; negation by witness, partial for one temperature.
  Outcome: Refuted by the code: write_joint_dos returns inside its loop over temperatures, so only the first temperature is written (C54_first_only, C54_second_missing for a whole run). C54_single_partial proves the claim for at most one temperature; C54_names shows that file names of different temperatures differ.
* **C55** (partial) Stored collision data is restored for every temperature. Array restore modelled; negation by witness for the one-file and per-band paths, proof for the per-grid-point path.
  Outcome: The collision matrix is restored for every temperature in all three layouts, and the writer puts in each file what belongs there. Linewidths are restored only from grid-point files or with one temperature: from a whole-sigma file or band files every temperature gets those of the first (C55_wrong, finding). Missing data: False is returned when not even the start is there, an exception is raised otherwise (C55_missing). Reading of a single temperature (indices other than all) is not modelled. At the level of a whole run the numbers read are computed again and overwritten (C158_not_used).
* **C56** (partial) Stored linewidths are restored for every sigma, grid point and band. Array restore modelled.
  Outcome: Reading restores every linewidth from the summary, per-point or per-band files, and reports failure exactly when data is missing; the writer puts in each file what belongs there. Two limits: sigmas closer than a millionth share a file name, and for a single grid point the summary file is named like a grid-point file and cannot be read back (C56_single_point, finding). Isotope linewidths (whose key differs between writer and reader and which are never assigned on reading) and the averaged interaction strength are not modelled.
* **C57** (proved) The smearing-width setting accepts numbers and None in any order. Decision logic on lists.
  Outcome: Proved for every list of floats, ints and None and for scalars; C57_others_dropped records that elements of other types (e.g. numpy integers) are silently dropped.
* **C58** (partial) Equivalent-pair bookkeeping of third-order displacements covers every second atom. Orbit enumeration on a finite permutation group.
  Outcome: Proved for every site-symmetry group given as permutations closed under composition: the labels produced cover every atom and each label is the smallest index of its orbit under the rotations applied successively (C58_cover, C58_one_partial). The shadowed variable in _get_orbits makes the labels of a 6mm site contain two representatives of one orbit: C58_two_representatives is a concrete group where the exactly-one half of the claim fails, so the property is partial by a defect of the code.
* **C59** (partial) The BZ-grid arrays are large enough. Number of stores of the two builders against the allocated size; geometric argument on pairwise distances of equally near images; negation by witness.
  Outcome: The claim is false in general: C59_overflow exhibits a lattice that needs nine rows for one grid point. C59_fits proves the bound of eight rows whenever every non-zero reciprocal lattice vector has squared length at least twice the tolerance; C59_at_most_125_partial holds without condition.
* **C61** (partial) Symmetrised interaction strengths are the average over the six permutations of the triplet. real_to_normal_sym_q with uninitialised memory as a parameter; six permuted calls collected; negation by two memories with different results.
  Outcome: Proved for all bands and no flags (the case Interaction.run produces). With integration-weight flags (the low-memory conductivity path) or a selection of bands the code reads malloc'ed memory it never wrote: C61_uninitialised_flag and C61_uninitialised_bands hold for every crystal.
* **C62** (proved) Interaction strengths do not depend on the arbitrary phase or basis of the eigenvectors. Strength as squared modulus of a trilinear form; invariance under phases and under unitary mixing inside a degenerate set (sums).
  Outcome: Phases of all eigenvectors; unitary mixtures of a degenerate set at any one member.
* **C63** (proved) A triplet and its time reversal have equal interaction strengths. Complex conjugation of phases and eigenvectors; squared modulus unchanged.
* **C64** (proved) Compact and full force constants give the same interaction strengths. Index maps of compact arrays; sums reindexed by lattice translations.
* **C65** (proved) Averaging over the choice of the first atom changes nothing when all distances are shortest. Three choices of first atom, equality from permutation symmetry when all multiplicities agree.
* **C66** (proved) Interaction strengths are symmetric under exchange of the second and third phonon. Permutation symmetry of force constants transported through the Fourier sums.
  Outcome: Both with and without make_r0_average.
* **C67** (proved) Reciprocal-space force constants are the lattice Fourier sums over the second and third atom. Loop nest to finite sums; independent formula in Spec/Reciprocal.lean.
  Outcome: For make_r0_average off.
* **C68** (partial) Linewidths computed on the fly equal those from stored interaction strengths. Both routines reduced to the same sum per triplet; order of summation independent.
  Outcome: Proved for unsymmetrised strengths, both methods, any number of temperatures, with the normal/Umklapp split. With symmetrisation the result depends on uninitialised memory: C68_symmetrized_uninitialised.
* **C69** (proved) The two scattering classes partition the linewidth. Finite sums split by class.
  Outcome: For weights whose flagged entries vanish.
* **C70** (proved) The Python and the C implementation of the linewidth agree. C and Python loops reduced to the same sum.
  Outcome: Without the common unit conversion factor.
* **C60** (partial) Tetrahedron vertices are the neighbouring grid points and conserve momentum. Neighbour lookup of both layouts on top of Model/BZGrid.lean; addresses congruent by the lookup lemmas, exact image in the dense layout.
  Outcome: Proved for every lattice and layout that vertices are valid translates and conserve momentum; the exact image is returned always in the dense layout, and in the sparse layout when no reciprocal lattice vector is shorter than the tolerance of the BZ reduction. C60_sparse_other_image shows that the sparse layout can return another image otherwise.
* **C71** (proved) Symmetrising fc3 with cutoff pairs uses exactly the computed elements. Update with flags as a fold; value as average over computed permutations.
  Outcome: Full array (the code always symmetrises the full array and then takes rows).
* **C72** (proved) Cutting fc3 by distance zeroes exactly the elements beyond the cutoff. Nested loops of zero stores; membership of the written positions.
  Outcome: Distances are a parameter (computed by phonopy).
* **C73** (proved) fc3 computed from displacements reproduces harmonic changes exactly. Normal equations of the displaced second-order force constants, rotated by the site symmetry; left inverse gives back the tensor.
  Outcome: delta fc2 and the pseudo-inverse are inputs; rank condition is the hypothesis that inv_U is a left inverse. Floating point not modelled.
* **C74** (proved) Computed pairs are all symmetry images of the pairs in the dataset. Flags set by nested loops; group argument on atom maps.
  Outcome: Atom maps of the operations are inputs. second_atom_nums is overwritten in the loop over the reduced site symmetry; proved harmless for groups.
* **C75** (proved) Elements of the collision matrix are the documented band sums and the irreducible matrix is their rotation sum. Loop nests to sums; relation of both layouts by the lookup of triplets (C38).
  Outcome: Element formulas of both layouts, their relation, independence of schedule and memory.
* **C76** (partial) Averaging over degenerate bands makes the collision matrix constant on degenerate blocks. Block averages in both axes; negation by witness for the reducible layout.
  Outcome: Holds for points that are averaged. Missing: in the reducible layout only columns of irreducible points are averaged; C76_reducible_columns is the counterexample.
* **C77** (proved) The symmetry-reduced collision matrix is equivalent to the full one on symmetric fields. Equivariant fields as functions on the orbit representatives; weighted matrices compared entry by entry.
  Outcome: Equivalence on equivariant fields, and of the weighted linear systems.
* **C78** (partial) The number of sampling grid points is the number of points of the mesh. Counters in the iterator model; star orders add up to the mesh by orbit counting.
  Outcome: C78_total and C78_sampling_partial: histories without failures after the velocities are set; C78_counted_twice (finding): a failure in the collision step followed by a retry counts the point twice, so the full statement is false of the code. C78_multiplicity for the multiplicities.
* **C79** (partial) Computing kappa again from the same linewidths gives the same result. State of the object after two calls; negations by witness for the accumulated entries.
  Outcome: C79_repeat_partial: RTA mode contributions and kappa do not change. The full statement is false of the code: C79_ignored_twice (ignored modes are counted again), C79_stale (stale entries), C79_wigner_doubles (kappa of the Wigner class doubles).
* **C80** (proved) The conductivity tensor is positive semidefinite and falls with stronger scattering. Quadratic form of the sum of velocity products with non-negative factors; monotone in the linewidth.
  Outcome: Positive semidefinite and antitone; the condition on vanishing linewidths is needed (C80_zero_linewidth).
* **C81** (proved) The conductivity tensor has the symmetry of the crystal. Sum over the star of a wave vector of rotated products, reindexed by a group element.
  Outcome: Invariance under the group represented by the Cartesian operations.
* **C82** (proved) Using the symmetry of the crystal does not change kappa. Sum over irreducible points times star average equals sum over the mesh.
  Outcome: From the iterator run to kappa equals meshConductivity of Spec/Conductivity on the full mesh.
* **C83** (partial) Wigner and Green-Kubo conductivities extend the relaxation time approximation. Loops over pairs of bands; reduction to the diagonal; negation by witness for the early return.
  Outcome: Wigner: every pair once (C83_total), reduction to RTA (C83_rta). Green-Kubo: C83_kubo_diagonal_partial; finding C83_kubo_lost: a lowest band below the cutoff removes all contributions of the grid point.
* **C84** (partial) The linewidth spectrum uses the smearing width the user gives. Spectrum routine with the width used; negation by witness.
  Outcome: Spectrum with the default width proved; a width given by the user is ignored (C84_sigma_ignored).
* **C85** (partial) Supercells reported as duplicates are identical. Dictionaries of direction sets; membership of reported pairs.
  Outcome: C85_pairs for two displaced supercells; C85_undisplaced_partial when each atom has one first displacement; C85_not_undisplaced: with plus and minus displacements a displaced supercell is reported as duplicate of 0.
* **C86** (proved) Phonon eigenproblems are Hermitian. Loop nests of dynmat.c to block sums (Spec/DynMat.lean); conjugate transpose of each part.
  Outcome: Gonze-Lee needs only that the phase of -x is the conjugate of that of x.
* **C87** (proved) q and -q have the same frequencies. Phase of minus q is the conjugate; eigenpairs conjugated.
* **C88** (partial) Rigid translations cost no energy. Translation vector applied to the blocks; sum rules; counterexample for the Gonze-Lee correction.
  Outcome: Proved without correction, with the correction of Wang, and with that of Gonze and Lee when the row sums of the dipole-dipole interaction are Hermitian. C88_gonze_not_acoustic: they need not be, and then the frequency is not zero.
* **C89** (proved) Equivalent wave vectors have the same frequencies. Phases of equivalent wave vectors differ by a diagonal unitary.
  Outcome: Without long-range correction, as the property says.
* **C90** (proved) The non-analytical correction depends on the direction only. Homogeneity of degree zero of the correction.
* **C91** (proved) Frequencies are signed square roots of the eigenvalues. Sign and root of eigenvalues with an arbitrary root function constrained by its law.
* **C92** (proved) Full and compact second-order force constants give the same phonons. Index maps of compact force constants.
  Outcome: Dynamical matrix without correction or with that of Wang; the Gonze-Lee matrix adds the same dipole term to the uncorrected one.
* **C93** (proved) Frequency shifts follow the formula of perturbation theory. Loop nests to sums; textbook formula in Spec/RealSelfEnergy.lean.
* **C94** (proved) The smearing width changes the shift in a controlled way. Estimate of the difference of regularised and principal-value terms.
* **C95** (proved) Symmetry and sign of frequency shifts. Parity and sign from the formula of C93.
* **C96** (proved) Each entry of the array of frequency shifts belongs to its own settings. State machine over sigmas, temperatures, grid points.
* **C97** (partial) Shifts from the Kramers-Kronig relation. List model of the transform; formula under the condition that the first linewidth vanishes; witnesses otherwise.
  Outcome: Counterexamples: C97_zero_inverted (a linewidth at zero frequency enters with the wrong sign, so the transform is right only when it vanishes), C97_assertion (first point accepted, then an assertion fails), C97_repeated (absolute tolerance accepts repeated points).
* **C98** (proved) Spectral functions are imaginary parts of the phonon propagator. Algebra of the propagator.
* **C99** (partial) Spectral function files hold the values of the bands they name. Run function with bound and unbound variables; witnesses for the failures.
  Outcome: Holds for one group of bands or text output only. Counterexamples: C99_last_group (hdf5 file names only the last group), C99_log_without_text (exception with logging and without text files), C99_name_ignored (the user's string does not enter the name of the files with real parts).
* **C100** (partial) The generated frequency axis covers all two-phonon processes. numpy linspace and arange defined by their length rule; comparison with the maximal frequency.
  Outcome: Complete for a number of points. With a step the last point may lie below the highest two-phonon frequency: C100_step_short.
* **C101** (proved) Mode Grueneisen tensors are strain derivatives of squared frequencies. Exact strain expansion of the dynamical matrix; first order of eigenvalues from the quadratic form.
  Outcome: Exact in the amplitude because the change of the force constants is linear; dipole-dipole (Gonze) corrections are not included in the Lean statement, the Wang term is. C101_lowest_at_gamma records the convention at the zone centre.
* **C102** (proved) Internal relaxation under strain puts the atoms at rest. Spectral inverse on the complement of the first three eigenvectors; zero net force.
  Outcome: C102_relaxed gives the forces left when the total force does not vanish. Eigenvalues and eigenvectors are those of any correct symmetric eigensolver; the first three are taken as acoustic, as in the code.
* **C103** (proved) What mode Grueneisen parameters do not depend on. Trace over a degenerate set; scaling and permutation invariance.
  Outcome: C103_not_unique shows by example that single parameters of degenerate modes do depend on the eigenvectors.
* **C104** (partial) Files of mode Grueneisen parameters hold what was computed for the wave vectors listed. State machine over calls; file contents from the last run.
  Outcome: Partial because wave vectors set after a mesh are written with the multiplicities of the mesh or fail (C104_stale_multiplicity), and results of an earlier run are written with wave vectors set later (C104_stale_results).
* **C105** (proved) Velocity operators are Hermitian finite differences of the square root of the dynamical matrix. Matrices over complex numbers of an ordered field; spectral rebuild of the root; mixing lemma for eigenbases of one matrix; sums over blocks.
  Outcome: Exact arithmetic; eigh and the complex square root are parameters constrained by their specification. C105_root/_root_unique: the matrix built is the (unique) root; C105_formula, C105_difference, C105_group_velocity, C105_choice, C105_reversal for the operator; C105_products, C105_pair_order, C105_contribution, C105_tensor_symmetry, C105_nonneg for the products of wigner.py.
* **C106** (partial) Group velocity matrices are Hermitian and respect the site symmetry of the wave vector. Matrix algebra; symmetrisation as an average over rotations; negations for interband elements and zone boundary.
  Outcome: Partial: the site-symmetry average rotates elements between different bands as plain vectors, so where inversion leaves q unchanged all interband elements are erased (C106_interband_erased, C106_all_at_gamma), and site symmetries that hold up to a reciprocal lattice vector are not found (C106_zone_boundary). C106_symmetrized_partial: matrices invariant as vectors are kept.
* **C107** (partial) The heat capacity matrix generalises the mode heat capacity. Rational function of exponentials; limit with Mathlib's derivative of exp.
  Outcome: Partial: below the cutoff the element uses the first frequency only, so the matrix is not symmetric there (C107_asymmetric); C107_symmetric_partial holds for pairs farther apart than the cutoff and for equal frequencies. C107_limit is over the reals with Mathlib's exp.
* **C108** (proved) Inside the direct solution the relaxation time approximation is the one of an ordinary run. Square roots removed by squaring; sums over operations to sums over the group.
  Outcome: C108_rta: equality with kappaRTA of Model/Conductivity; C108_weights; C108_heat_capacity over the reals.
* **C109** (partial) Both layouts of the collision matrix give the same conductivity. Intertwining of functions of matrices: the reduced matrix is the full one seen through a partial isometry; the two layouts are two instances.
  Outcome: C109_layouts_partial: equal conductivities without degenerate bands, for the prepared matrices of both layouts and any solvers with eigenvalues; C109_irreducible and C109_reducible: both are the conductivity of the full mesh. Missing: degenerate bands, where the claim is false (C109_degenerate_differ).
* **C110** (proved) The conductivity of the direct solution is a symmetric tensor of the crystal and positive. Group sums; quadratic form as a sum of squares over eigenvectors.
  Outcome: C110_symmetric for any Y; C110_positive_* under the condition on kept eigenvalues.
* **C111** (proved) All solvers of the direct solution invert the same operator. Uniqueness of functions of a symmetric matrix from intertwining with the identity; Penrose conditions.
  Outcome: C111_eigen for the solvers with eigenvalues, C111_pinv for solver 7, C111_select for the selection.
* **C112** (proved) Mean free paths reproduce the mode conductivities. Algebra with a square root constrained by its law.
  Outcome: C112_mean_free_path for modes with heat capacity above the threshold; C112_rta.
* **C113** (partial) Collective phonons add up to the conductivity. Quadratic form by its spectrum; negation for matrices that are not symmetric.
  Outcome: C113_total_partial assumes the products are diagonalised correctly, which needs them symmetric; C113_asymmetric shows failure otherwise.
* **C114** (partial) Evaluating the direct solution depends on the collision matrix alone. One step of a state machine; witness for the second evaluation.
  Outcome: C114_evaluate_partial and C114_zero: an evaluation depends on the collision matrix alone. Missing: repeated evaluation gives the same result, which is false (C114_second).
* **C115** (proved) Niggli reduction returns a Niggli cell of the same lattice. Each step multiplies by an integer matrix of determinant one; a pass in which no step fires gives the conditions.
  Outcome: Exact arithmetic in any ordered field. Convergence within 100 rounds is not claimed. The layer option (aperiodic axis), not used by phono3py, is left out.
* **C116** (proved) The Brillouin-zone grid holds the nearest of all translates. Height of a Minkowski-reduced form bounds the coordinates of points of the Voronoi cell by 5/2; rounding leaves 1/2, so translates of at most two suffice; finitely many short vectors give the nearest one.
  Outcome: C116_reduced_basis is for any basis Minkowski reduced within eps, 100 eps at most the shortest squared length; C116_gridsys asks that no reciprocal lattice vector be shorter than sqrt(1/1000). C116_gridsys_small_cell and C116_unreduced_misses are the negative cases.
* **C117** (proved) The Brillouin-zone grid of the Python class is that of the given lattice. Bases of one lattice differ by a unimodular integer matrix, which the code recovers exactly; the distances are those of the given basis.
  Outcome: get_reduced_bases of phonopy is a parameter of which only the stated hypotheses are used; that its output is Minkowski reduced is a hypothesis of the last part.
* **C118** (proved) A grid object holds exactly the wave vectors of its grid matrix and shift. The factorisation P A Q = D turns A q = n + S/2 into the addresses; the tables are those of the valid BZ grid.
  Outcome: Assumes positive mesh numbers (any matrix that is not diagonal gives them: C118_user_matrix). length2mesh, estimate_supercell_matrix, is_primitive_cell and get_reduced_bases are parameters. C118_mesh_ignored: mesh arguments that are silently replaced by 1x1x1.
* **C119** (proved) A grid object is refused exactly when its grid breaks the symmetry. An operation keeps the grid exactly when D Q⁻¹ R Q D⁻¹ is an integer matrix that respects the shift, read off the images of the origin and the unit addresses; the rounding tests decide that exactly.
  Outcome: Mesh numbers below 100000, where the rounding test is exact, and at most 48 (24) different rotations, as any point group has; above that C refuses and the list of operations is empty.
* **C120** (proved) Looking up an address finds its grid point, and gp_Gamma is the zone centre. Pointer tables; the origin is the first vector of the search, at distance zero.
  Outcome: For the unshifted grid the zone centre is exact, not only up to a reciprocal lattice vector.
* **C121** (proved) A mesh length gives the grid of the conventional supercell. Matrix algebra with inverses; witness for the test that never fires.
  Outcome: length2mesh and estimate_supercell_matrix are parameters. C121_standard_lattice: a consistent standardised lattice is accepted. C121_given_matrix: a given grid matrix is accepted iff its determinant is positive and is stored as it is. C121_inverse_not_tested: the integrality test of the mock dataset does not test.
* **C122** (partial) Supercells with displacements are those of the dataset. State machine of the setters with exceptions; invariant that a cache, if there is one, is that of the dataset, by induction over histories; negations for failing assignments and masses.
  Outcome: Proved for all histories in which assigned displacements have the shape of the supercell: positions of the cells, also for fc2, and when reading raises. Missing because false: assignments of another shape, masses of cached cells, refused dataset for fc2 (general negations).
* **C123** (partial) Forces stay with the displacements they belong to. Invariant that a dataset pairs forces with displacements, kept by the harmless calls; negations for the displacements setter and for too few forces.
  Outcome: Proved for all histories in which forces are not kept by the displacements setter (KeepsPairing) and arrays have the shape of the supercell: forces held with displacements were given for exactly those. C123_type1: in a type-1 dataset forces are assigned in order to the displaced supercells, and the setter raises iff there are too few. Missing because false: C123_kept_forces, C123_mixed.
* **C124** (partial) A calculation uses the data the object shows. Arrays in a store with pointers, so that sharing and in-place changes are visible; invariant between the interaction and the object, by induction over histories; general negations for each setter that is not propagated.
  Outcome: Grid and smearing widths: all histories. Everything else: all histories after the last initialisation that leave force constants, masses and band indices alone. Missing because false: the setters of these (general negations).
* **C125** (partial) Force constants come from the current datasets. One step of the same machine for arbitrary solvers; general negations.
  Outcome: fc3 and, without an earlier fc2, fc2 come from the current dataset. Missing because false: an earlier fc2 stays, wrong cell, blocked after a refusal.
* **C126** (proved) Symmetry-equivalent wave vectors have equivalent dynamical matrices. Reindexing of the Fourier sums by the permutations of atoms, supercell and images; conjugation by the rotation.
  Outcome: Dynamical matrix of the Wang variant or without correction, wave vector given without a direction at Gamma; the Gonze-Lee variant is not covered.
* **C127** (proved) Phonons made from irreducible points are phonons. Invariant of the two loops that a point marked as done holds the modes of its matrix, with C126 for one step, C14 on grids of reduced bases for the rotated address and C53-type coverage for the final loop.
  Outcome: Grid without shift, matrices as in C126, no direction at Gamma; the irreducible points, permutations and translations of the crystal are arguments, with the hypothesis that every permutation belongs to its operation. SurfaceSeparated excludes grids on which the tolerance of the search decides which translates are stored.
* **C128** (proved) Interaction strengths respect crystal symmetry. Strengths are squared moduli of trilinear amplitudes; sums over a complete orthonormal set of eigenvectors with a function of the eigenvalue depend on the matrix only (spectral theorem by Lagrange interpolation); the amplitude of turned vectors is that of the vectors by reindexing the lattice sums.
  Outcome: No hypothesis on eigenvectors beyond being a complete orthonormal set for the dynamical matrix. Symmetry of the force constants is a hypothesis (IsFc3Symmetry), as is that shortest vectors join lattice positions; with the non-analytical term the images must not need reciprocal lattice vectors (the Wang matrix is not periodic, C87).
* **C129** (proved) Irreducible triplets give the same linewidths as all triplets. Classes of the triplet map (C17) are orbits, on each of which C128 makes the sums equal, and weights count them (C16); smearing weights are functions of the frequencies (C24), and sorted frequencies at translates agree because their power sums do.
  Outcome: Smearing variant, all bands of the grid point, no non-analytical term. C129_sum holds for any weight that is a function of the three frequencies; tetrahedron weights are not (they depend on neighbouring points), so the tetrahedron variant is outside. Frequencies in ascending order at each grid point.
* **C130** (partial) The two languages of Interaction.run give the same strengths. The two reciprocal force constants differ by a phase common to all entries, so amplitudes have equal moduli; the nested loops over atoms and directions are reindexed. Negations by witness.
  Outcome: Equality proved for full fc3, Q = 1, no symmetrisation, no r0 average and triplets whose phase is kept (C130_languages_partial). The full claim is false of the code: C130_phase_dropped, C130_general_grid, C130_compact_raises, C130_stale_flags. The witnesses over the rationals use a table of exp(2 pi i x) that is right at half-integers (halfPhase_real); other arguments only occur in terms with zero force constants.
* **C131** (proved) The two languages of CollisionMatrix.run give the same collision matrix. The lookup tables of both implementations agree (C38); the sums are reordered.
  Outcome: Both languages give the same array for the triplets the code makes. Hypotheses: cutoff frequency not negative, 1/sinh computed with the same constants in both languages.
* **C132** (partial) The two languages of ImagSelfEnergy.run give the same linewidths. Both are the same finite sum; negation at 0 K by witness.
  Outcome: Proved for positive temperatures, and at 0 K if strengths of modes not above the cutoff vanish. The full claim is false at 0 K (C132_zero_temperature).
* **C133** (partial) The two languages of smearing weights agree. Entry by entry from C24; a flagged entry is zero in C and positive in Python.
  Outcome: Proved for entries that are not flagged. The full claim is false: C133_cutoff_ignored.
* **C134** (proved) The joint density of states counts pairs of modes and respects crystal symmetry. Sums over loops; slabs of the weights by C24; classes of triplets are orbits (C17), on which sums over bands of functions of the frequency agree because the matrices have one spectrum (C126).
  Outcome: Values for both languages, with and without temperature; independence of mesh symmetry for smearing, without the non-analytical term correction. The tetrahedron method enters through the weights g only (C22, C23).
* **C135** (partial) A dataset of displacements and forces survives phono3py.yaml. Writer and reader as functions between datasets and trees of keys; induction over groups of second atoms; sorted lists are the concatenation of their groups.
  Outcome: Partial because the code violates the claim: a file with forces holds no marks of inclusion (C135_included_lost), so that after loading the zero forces of supercells beyond the cutoff, which were never calculated, are used (C135_zero_forces_used). Everything else comes back for datasets whose second atoms are in increasing order (C135_round_trip_partial, C135_again), which generated ones are (C135_generated). Second atoms in another order are reordered or rejected (C135_unordered); a first atom without pairs cannot be loaded (C135_no_pairs). The text of the YAML is not modelled.
* **C136** (partial) phono3py.load takes force constants from the documented sources in the documented order. Choice of sources as functions of a directory and arguments; case analysis. General theorems for the deviations.
  Outcome: Partial because the code deviates: fc3.hdf5 in the directory wins over forces_fc3_filename (C136_hdf5_first), forces in phono3py.yaml win over forces_fc3_filename (C136_yaml_first), and the documented pair of names raises (C136_sequence_raises). Otherwise the order is as documented (C136_priority_partial) and fc2 is as documented (C136_fc2).
* **C137** (partial) Repeated phono3py-load runs use the same force constants. Runs as transformations of the directory; induction over histories; crash points are prefixes of the steps of a run.
  Outcome: Partial because the code rewrites fc3.hdf5 in every run: without --cutoff-fc3 any number of runs keeps the files (C137_runs_keep_partial, C137_first_run); with it the stored fc3 is truncated for good (C137_cutoffs_accumulate, C137_original_lost), and an interrupted run destroys it (C137_interrupted).
* **C138** (partial) The phono3py command makes or reads the force constants it needs. Case analysis over the settings; the unassigned local variable is an option that is used.
  Outcome: Partial because without fc3 and without --fc2 the command always fails (C138_skip_raises, a local variable that is not assigned). Otherwise force constants are made (C138_makes_partial, for one supercell and forces of type 2) or read (C138_read_keeps), and files that are read are untouched at any point (C138_read_untouched).
* **C139** (partial) A smaller --cutoff-pair given for the force constants leaves out the pairs beyond it. Fold over second displacements as a filter; witness for marks, and C135 for their survival in the file.
  Outcome: Partial because pairs with inclusion marks ignore the option (C139_marks_first, C139_marks_witness), and the displacements that phono3py makes with a cutoff have such marks (C139_marks_survive). Without marks the claim holds (C139_cutoff_smaller, C139_pairs_partial).
* **C140** (proved) The displacement correlation of DispCorrMatrix is that of quantum oscillators. Sums over modes with orthonormal eigenvectors; independence of the eigenvectors by an expansion of one basis in the other; Gaussian integrals of Mathlib for the covariance and the density.
  Outcome: eigh is external: its result is any set of eigenvalues and orthonormal eigenvectors.
* **C141** (partial) Stochastic force constants are exact where the theory is. Penrose conditions make the pseudo-inverse of a symmetric matrix symmetric and the covariance times it the identity on the sample; moments by reordering sums. Negations by witness.
  Outcome: Partial because the code violates the claims: harmonic forces give spurious third-order force constants if the sample has a mean displacement (C141_spurious_fc3), and the result is not symmetric in its third index (C141_third_index_differs). pinv is any matrix with the Penrose properties.
* **C142** (partial) Mean square displacements leave numpy's error handling alone. Global state threaded through the call; case analysis.
  Outcome: Partial because the code violates the claim: a failing call leaves numpy raising on every floating-point error (C142_failure, C142_zero_temperature).
* **C143** (partial) Collision data read at selected temperatures are the data at these temperatures. `set_collision_from_file` with the three forms of its argument `indices`, over the directory model of C55. A read at selected indices equals a read of selected files (whole files) or of files constant in temperature (pieces), so C55 applies; failing cases by following the first file.
  Outcome: Partial because the code violates the claim. Proved for one index: whole files, or pieces made at a single temperature (C143_one_partial). Violations: pieces made at several temperatures (C143_pieces_one, C143_pieces_raise, C143_documented), several indices of whole files get the linewidths of the first (C143_full), read_collision=True (C143_flag). C143_all shows that "all" is the case of C55. Negative indices and h5py errors on repeated indices are not modelled beyond raising. At the level of a whole run the numbers read are computed again and overwritten (C158_not_used).
* **C144** (partial) A setting is what its command option says, else what its tag says, else the default. The calls of `add_argument`, the blocks of `_read_options`, the keys of `_parse_conf` and the blocks of `_set_settings` are transcribed as tables; four functions give them meaning. The kernel evaluates that the tables fit together for every row; induction on the command line and the file does the rest. phonopy's base class is a parameter.
  Outcome: Partial because the code violates the claim for four rows: the tags N_U and WRITE_LBTE_SOLUTION (C144_tag_ignored), the option --pp-unit-conversion (C144_unit_conversion_ignored) and --v2 (C144_v2_reversed). For all other rows the full claim is proved (C144_says_partial, C144_option_preferred_partial); --wigner and --kubo, which share a setting, in C144_conductivity. Left out: --thm and --gm, whose settings are shared with phonopy's base class. Assumed: ConfParser.read_file of phonopy stores tags in lower case, as documented (tags are case insensitive), and its other methods leave phono3py's keys and settings alone (BaseApart).
* **C145** (partial) Forces collected from calculator output belong to the supercells they were calculated for. `create_FORCES_FC3_and_FORCES_FC2` with its helpers as one function from settings, yaml content and parsers to the files written. Forces reach supercells by induction over the loops with their two counters; the file route continues with C45 and C46, the order of supercell files with C48. Negations as general theorems with their hypotheses and by witness.
  Outcome: Partial: proved for fc3 forces of single and pair displacements, by both routes, and for fc2 with the right number of files and the calculator repeated on the command line. The code breaks the rest: calculator of phono3py_disp.yaml ignored for fc2, number of fc2 files not checked and an incomplete file left behind, old forces rewritten and any number of files accepted for displacements of all atoms, energies required by --sp, phono3py_params.yaml unusable with a pair cutoff.
* **C146** (partial) A self-energy object's result belongs to its current settings. State machine of the object with the numerical routines as parameters; invariants over histories of calls (induction), negations as computations for every routine. That skipped strengths do not matter is proved for the C routines as modelled for C23-C25 and C40.
  Outcome: Full claim fails: C146_stale_weights, C146_stale_points, C146_stale_flags, C146_partial_strengths, C146_shared, C146_stale_value are proved negations. Proved: with weights computed after the last change of the settings, the result belongs to them.
* **C147** (proved) Linewidths of conductivity runs do not depend on how interaction strengths are obtained. The loops over smearing widths and temperatures of the conductivity classes run the state machine of C146; induction over widths, temperatures and grid points. Averages by sums over triplets with C16.
* **C148** (partial) get_imag_self_energy returns values and triplet contributions of the stated settings. The loops of `get_imag_self_energy` run the same state machine; the stores of triplet contributions are a fold over temperatures and widths, solved in closed form.
  Outcome: Values are right (C148_values); the claim on contributions of triplets fails (C148_fails, C148_at_bands) except for one smearing width and one temperature (C148_single_partial) and in files for sampled frequencies (C148_at_points).
* **C149** (proved) fc3 from the forces of generated displacements is exact for third-order crystals. Generator and solver as functions of the crystal with numpy and phonopy as parameters under contracts (least-squares fit, distribution by symmetry, pseudo-inverse). The generated displacements span space and their odd moments vanish (both signs, or an operation that inverts the direction), so the fit of each second atom is exact although forces have second-order terms; orbits (C58) reach every atom, and C34 finishes. Below the tolerance: the fit is unique and its sum of squares does not change under the site group.
  Outcome: Full array, no pair cutoff. Contracts of numpy and phonopy (solve_force_constants as least-squares fit over turned rows, distribute_force_constants, get_displacement, is_minus_displacement, pinv, get_fc2) are the fields of ToolsSound; that they hold for phonopy is trusted. C149_small_displacements and C149_length_matters show that the condition on the length is needed.
* **C150** (partial) Memory-saving linewidths equal those from stored strengths. The triplet-by-triplet routine of C68 with the weights of C23/C24 for one triplet as slices of the weights of all, strengths by C40, and the stored route as in C146/C147. Equality of sums over triplets and pairs of bands.
  Outcome: Without symmetrisation in reciprocal space and with a width other than 0.0 both routes agree for totals, parts, all widths and temperatures. With symmetrisation the default route reads uninitialised memory (C68_symmetrized_uninitialised); for the width 0.0 the routes use different methods (C150_zero_width).
* **C151** (proved) Joint-DOS runs give the values of their settings whatever was run before. State machine of `JointDos` (arrays, flags, direction) over the phonon solver of C52, with the loops of `Phono3pyJointDos.run`; invariant that the phonons at Gamma are those of the direction in force, by induction over histories. Batches by C29; that rows are computed point by point by C23, C24 and C134.
  Outcome: For one mesh. General counterparts for a changed mesh and for direct use of JointDos are proved as failures. Frequency points as a function of the phonons are a parameter (C54 treats their values); the weights and sums are those of C23, C24 and C134 for the code (C151_code).
* **C152** (partial) Direct solution and relaxation time approximation of the Wigner transport equation agree where they calculate the same. `ConductivityWignerLBTE` as functions on arrays over the model of C108-C114 and the pairs of C83; velocities of degenerate bands by blocks with `eigvalsh` under its contract. Coherences pair by pair; populations by C108 and C83; squares by traces. Sign of the `xy` part by witness over the reals.
  Outcome: Partial: populations agree for bands that are not degenerate only (C152_degenerate_differ), total attributes stay zero (C152_totals), pairs exactly at the tolerance are lost (C152_coherences_difference).
* **C153** (partial) A run performs the calculation its options select, with the values given or the defaults, or stops with a message. Model/CommandRun: `main` from the settings on as a function to an ending (calculation with its arguments, message with exit status, exception) and the phonon files; get_run_mode, get_default_values, settings_to_grid_points and init_phph_interaction branch by branch; the harmonic solver, grid lookup and comparison of addresses are parameters. Props/CommandRun states which calculation each option asks for and which values and phonons it goes by (`askedFor`, `ValuesOf`, `PhononsAre`) and proves it for every single choice; two runs are composed through the files; the exceptions are characterised.
  Outcome: Proved for every single choice of calculation. Partial because the code departs from it: isotope scattering takes neither the default cutoff frequency nor the direction, Grueneisen parameters not the conversion factor, reading and writing phonons together destroys them, and the spectral function raises instead of giving a message; each departure is a theorem. Not modelled: runs with machine-learning potentials and the memory estimate; reading structures, non-analytical parameters and force constants is assumed to succeed (C113-C118, C144, C145 treat them).
* **C154** (partial) phono3py-kaccum prints the accumulated property of the modes in the file for every temperature or the one asked for. `main` of kaccum_script.py as a function of options, file and grid to the blocks printed, over the model of C43. Rows and weights follow from reading the file; every spectrum ends at its total by C43; a selected temperature is a slice of the lists, so the block is that of the full run. Failing options by following the first spectrum.
  Outcome: Full claim false of the code: --pqj, --gruneisen and --gv-norm fail for every file (C154_scalar_raises), --gv --mfp with several temperatures (C154_gv_mfp_raises), --no-gridsym on phonon files with surface points (C154_no_gridsym_raises), files without mode_kappa (C154_no_mode_kappa); mean free paths omit other scattering (C154_mfp_longer). Proved for conductivity against frequency and mean free path, linewidths, lifetimes, heat capacities, density of states, and the selection of a temperature. Not modelled: --smearing, number formatting, reading of the crystal structure.
* **C155** (partial) Isotope linewidths do not depend on the eigenvectors chosen and respect crystal symmetry. Over the model of C39: sums over the modes of two wave vectors as traces (spectral sums of C128), so that any orthonormal eigenvectors give the same; eigenvectors turned, conjugated and translated by C126, C87 and C128; the rotation permutes the grid points (C03). Violation for single degenerate modes by two eigenvector sets of one crystal.
  Outcome: Proved for sums over modes with smearing (choice of eigenvectors, symmetry, translates) and for single non-degenerate modes; the claim for single degenerate modes is refuted by C155_degenerate_modes. The tetrahedron method is not covered: its weights of degenerate partner bands may differ.
* **C156** (partial) Each order of force constants is computed by the calculator and with the options named for it. Strings as lists of characters; splitting at bars, the filter of known names, the cutoff text and the two attempts of phono3py-load as functions. Texts are specified by what they say of each order (`PerOrder`); splitting is proved by induction over the text. The origin of fc2 and fc3 is followed through both attempts; violations are general theorems with examples.
  Outcome: Proved in full: calculators, options and cutoff reach the order they are written for, and fc3 of phono3py-load. Partial for fc2 of phono3py-load: with random displacements and a built-in calculator for one order only the claim is false (C156_fc2_from_fc3, C156_fc2_renamed). A cutoff of zero, and texts with more than one bar, are not covered.
* **C157** (partial) A conductivity put together from runs at single grid points and bands is that of one run. Model/RtaRun: get_thermal_conductivity_RTA as a function of settings, crystal and directory to the list of files it writes and its ending; a kill is a prefix of that list. Every file of every run holds what belongs in it (invariant of C56 extended to runs with other grid-point lists, by the injectivity of file names C47), so reading gives the true linewidths; the result depends on linewidths in range only. Completed runs leave all their names. Violations: the general theorem at other temperatures, reading summaries alone, the first grid point of Green-Kubo and isotope runs.
  Outcome: C157_resume_partial: the result of a reading run after any history of partial and killed runs is that of a computing run if the files cover the mesh, else False; C157_done: completed runs cover the mesh. Partial because the code violates the rest: C157_other_temperatures, C157_one_temperature, C157_old_summary, C157_kubo, C157_isotope_bands, C157_reread_bands; C157_part_no_kappa: part runs have no conductivity. Trusted: h5py refuses compression of scalar datasets; a kill inside the writing of one file is not modelled.
* **C158** (partial) A direct solution resumed from stored collision data is that of one run. Model/DirectRun: get_thermal_conductivity_LBTE as a function of settings, crystal and directory to the files it writes and its ending, with the flag `_read_gamma` in the state. Every file of every run is good in the sense of C55, so that reading succeeds with the temperatures (C143); the loop then overwrites every position of a grid point, and positions of no grid point stay zero. `C158_not_used` follows for any directory. Violations: shapes of the file with everything of a part, position 0 of the isotope linewidths, C143_pieces_one.
  Outcome: Resuming gives the result of one run (C158_resume_partial, C158_done), but not because the stored data are used: C158_not_used shows that any numbers in the files give the same result. C158_part_solution, C158_isotope_first and C158_one_temperature are further violations.
* **C159** (partial) Force constants read and symmetrised are those that were computed and symmetrised. `_read_phono3py_fc3` as a function of the file to an ending; the symmetrisation over the routines of C31 and C33 with the leading dimension as parameter. Full arrays: means over permutations keep vanishing sums, so the result is a fixed point. Compact arrays: the sums over the leading index vanish after each of the three steps, and the permutation step with `shape[0]` for the number of atoms touches the first blocks only.
  Outcome: Proved for full arrays; refuted for compact arrays (C159_compact_sum, C159_compact_one with a symmetric witness). phonopy's check_force_constants_indices is a parameter.
* **C160** (partial) The printed drift is the largest sum of the force constants over each atom index. `show_drift_fc3` as folds that keep the largest value over the list of index tuples; specified by `LargestDrift` (bound and attained with its directions). Sums over compact arrays are those of the expanded force constants by moving the first atom (C33); the first index by the cases of the transposition (C32), its failures by witnesses in two cells.
  Outcome: Proved for full arrays and for the second and third index of compact arrays; the first index is proved up to the order of letters without half translations or for symmetric force constants, and refuted otherwise. Printing to six decimals is not modelled.
* **C161** (partial) A run that makes supercells makes the displacements its options ask for. Model/CreateSupercells: the options, the two generating methods and the order of their calls as functions, with generators and estimates as parameters; specified by what is asked of each generator (`askedFc3`, `askedFc2`). Violations are general theorems with examples over generators that write down their arguments.
  Outcome: Proved for fc3, and for fc2 with --dim-fc2 (or a number for --rd-fc2) except auto; the other cases are refuted. Generators, estimates, writers and cell construction are parameters; the magnitude of maximum distances and NAC parameters are left out.
* **C162** (partial) Conversion between FORCES_FC3, FORCES_FC2 and phonopy's FORCE_SETS keeps every displacement's forces. Model/ConvertForces over the writers and parsers of C45/C46 and the collection of C145: the files to FORCE_SETS as a function; reading a prefix of the blocks of FORCES_FC3 gives what the full parser gives the single displacements. FORCE_SETS is specified by `wantedSets`. Violations as general theorems.
  Outcome: Proved: FORCE_SETS holds what phono3py reads for the single displacements, after --cf3 the forces of their own files; FORCES_FC2 likewise; round trip of --fs2f2; matrix check. Partial because a short file with forces in the yaml file is not an error (C162_old_forces). phonopy reader and writer of FORCE_SETS are modelled by the values read back.
* **C163** (partial) A saved phono3py yaml file gives back each dataset for what it was. Model/YamlDatasets: the keys chosen by the writer and the reader, with the contents of datasets as parameters and the last of equal keys kept; case analysis over the kinds of the two datasets; composed with the choice of sources of C136.
  Outcome: Proved for the combinations named; partial because displacements of all atoms for fc3 are read for fc2 as well when there is a matrix but no dataset for fc2 (C163_taken_for_fc2, C163_file_ignored). _get_dataset and _displacements_yaml_lines_2types of phonopy are modelled by what they read and write.
* **C164** (partial) Isotope linewidths after any history of calls are those of the crystal, grid point and smearing width in force. Model/IsotopeObject: the object as a state machine with the harmonic solver and the strength as parameters; an invariant over histories says that solved points hold the phonons of the matrix and direction in force. The solved arrays make every later matrix and direction irrelevant, which is proved as such.
  Outcome: Histories of one crystal are proved; the full claim fails after a change of dynamical matrix or direction (C164_new_matrix, C164_new_direction). The harmonic solver and the strength are parameters here (C52, C39, C155).
* **C165** (partial) With a machine-learning potential the force constants are those of the potential, and it stays the same from run to run. Model/MlpRun: search for the potential in a listed directory, training, displacements (C161) and evaluation (C123) as functions; force constants by the route of C137. An invariant over runs and listings keeps the saved potential. Violations are general theorems; the file names are lists of characters.
  Outcome: Proved for directories in which the names that begin with polymlp.yaml are accepted ones, without left-over force constants and without a supercell for fc2; the other cases are refuted. phonopy's and pypolymlp's training and evaluation are parameters; a potential that is written is read back.
* **C166** (proved) Averaging over the first atom is the mean over the three choices and makes interaction strengths symmetric. Model/AllShortest: the search for triples at shortest distances as stores on an array of zeros, on the data of C67. Positions, images and shortest vectors are specified apart from it (Spec/AllShortest); a marked triple is one whose images are nearest to each other, which is symmetric and invariant under translations. The sums over marked triples seen from the three atoms are equal by a bijection through the translations; all other terms are the same on both sides.
  Outcome: The lists of shortest vectors come from phonopy and are specified, not modelled; the tolerance of the lists and of the comparison is the same number. Exact arithmetic.
* **C167** (partial) Interaction strengths without the average over the first atom. Spec/CommensurateFc3 defines wave vectors with the period of the supercell and the Fourier sum over its atoms. Phases of all images of an atom are equal at such wave vectors, so the elements without average are the Fourier sum (C167_fourier), which is symmetric by translation of all three atoms; with C166 the average changes nothing (C167_same, C167_symmetric_partial). At other wave vectors the claim is false: C167_depends gives two atoms in a row whose strengths are 4 and 1 depending on the order.
  Outcome: Proved at wave vectors that fit into the supercell. At other wave vectors the strength without the average depends on which phonon is taken for the first: C167_depends has a row of two atoms, all hypotheses met, with strengths 4 and 1 for two orders of the same three phonons.
* **C168** (partial) Files of triplet contributions hold the contributions of their smearing width. Model/GammaDetail: the attribute with contributions as it is made anew for every smearing width on top of the loop of C147, the writer and the loop over grid points; contents of files as records (Spec/GammaDetail). An explicit list of files is proved; the C routine with details is put in for the numerical one and C26, C27 give the sums.
  Outcome: Proved for every run that computes linewidths: all files of a grid point hold the contributions of the LAST smearing width (C168_last); with one width every file is right (C168_single_partial); with several the files of other widths are wrong (C168_wrong). Sums give the linewidths with and without the option (C168_sum) for the routines of the code (C168_skipping). With averaged strengths the run raises AttributeError on a fresh object (C168_averages_fail); with linewidths read from files the files have no contributions (C168_read_gamma) or writing raises for selected bands (C168_read_gamma_bands). Names of files are keys here; C47 says when names differ.
* **C169** (partial) Interaction strengths written by one run are used by another only where they are right. Model/PpRuns follows interaction_strength and zero_value_positions of the Interaction object through the loops of C147 (ppSigmas; its other results are those of rtaSigmas, ppSigmas_same) and writes them to a directory. An invariant over the widths shows that the file belongs to the last one; C147_file then gives the later run. C169_bands shows that a file of another selection of bands is accepted.
  Outcome: Partial because a file of another selection of bands is accepted: C169_bands, C169_bands_wrong. C169_written gives the contents of the directory after every run, C169_round_partial the linewidths of every later run at the last width, C169_missing that it stops without a file. C169_erased and C169_averages_written: runs that write files without strengths.
* **C170** (proved) A spectral function object holds the values of its own settings after every step. Model/SpectralObject: the iterator with its index and arrays, a new self-energy object for each step, and the stores for widths, temperatures and grid points. The predicate HoldsFirst n (Spec/SpectralObject) is an invariant of the iteration (spfNext_value), with C148's lemma for the batches; C170_batches removes the batches.
  Outcome: Given that the shifts exist (frequency points from zero, equally spaced: C97) and a positive batch size (C29). C170_steps, C170_run and C170_ends cover all histories: begun again from any state the arrays are made anew.
* **C171** (partial) Runs for frequency shifts use the smearing widths asked for and write one file for each of them with their own values. Model/ShiftFiles: the widths of run_real_self_energy, the nested loops of both writers and the setter of sigmas; files as values. WidthsAsked and the expected lists of files are in Spec/ShiftFiles; C30_group_average gives the values of the groups. Failures are proved for every input of the kind described.
  Outcome: C171_files_partial gives the exact list of files and parts of the array for widths that are numbers and sampled frequencies. The full claim fails: a first None beside others is dropped (C171_first_dropped), a later None fails only when text is written (C171_later_fails), text files at band frequencies fail (C171_at_bands_fails), other kinds of numbers are dropped by the setter (C171_setter). The numerical values are those of C93-C96, a parameter here; names of files that agree after rounding are not modelled.
* **C172** (partial) disp_fc3.yaml gives back the displacements written to it. Model/DispYaml: the nested loops of the writer with the counter, the assertion on ids and the mark kept between groups, and the reader; the file is a record, formats are rounding functions. writeSeconds_iff shows by induction that the writer succeeds exactly if ids follow each other in file order; grouping by sorted atom is the identity on ordered lists (fileOrder_ordered).
  Outcome: C172_round_trip_partial needs second atoms in increasing order and marks on all or none of them; C172_written_iff shows the order is needed, C172_included_leaks that a mark leaks to later atoms, C172_empty_unreadable that empty groups are not read. Ids and duplicates are not read back by the code. disp_fc2.yaml and the cell are not modelled.
* **C173** (proved) Expanding and symmetrising the collision matrix in Python gives what the C functions give. Model/ExpandPy has the Python loops on one block; expandStep_block shows that one round of the C function is the Python round on its own block and nothing on others (injectivity of the addresses); induction over the rounds gives C173_expand without any assumption that the table is that of a group. Symmetrisation by C35_value and an invariant for pairs visited twice.
  Outcome: Exact arithmetic. The order of OpenMP iterations of the C function is treated in C36. The Python loops over all pairs (_py_symmetrize_collision_matrix) are not called by the code.
* **C174** (partial) Rotating a grid point gives the point at the rotated address. Modelled: the Python rotations of BZ grid points with and without surface treatment, on the arrays the C grid construction makes. Proved from the filing facts of the grid (blocks, representative first, distinct addresses): the returned representative, independence of the image, injectivity, the exact success condition of the Python variant and its agreement with C. With a shift the variant without surface rotates the address instead of the q-point; a general theorem shows inversion is then always wrong.
  Outcome: Partial: holds on grids without shift. _get_grid_points_by_rotations (and the Python variant with surface) multiplies the rotation by the integer address and forgets PS, so on a grid with a shift that is not a mesh translation inversion never gives an equivalent point (C174_shift_ignored, for every such grid and point). The C variant takes the shift into account.
* **C175** (partial) Integration weights in Python are those of C, and phonons are solved wherever they are read. Modelled: both Python branches element by element, on the arrays and the C model of C23, C24 and C60; phonopy's tetrahedron engine is taken to be the C weight. Equal frequencies follow from equivalence of the vertices used by the two layers (C60 and the representative of C174). Where C takes imaginary frequencies as zero or leaves out entries beyond the cutoff the layers differ, shown by a witness and a general theorem.
  Outcome: Partial: with the tetrahedron method equality needs real frequencies, because C replaces negative ones by zero and Python does not (C175_imaginary_differs); with smearing it needs sigma_cutoff=None, because Python ignores the cutoff (C175_cutoff_ignored). Frequencies at equivalent points are assumed equal, and phonopy's tetrahedron engine is assumed to compute the same weight as the C function. The collected grid points and their sufficiency are proved in full.
* **C176** (partial) A conductivity run goes over every class of equivalent grid points once, with the right weights. Modelled: the three branches of the grid information, the count of the classes by the loop over the table of irreducible points, and the list for the yaml file. The count is a list count (countLoop_count) and, by C04_ir_map_classes, the size of the star; moving to images on the zone surface uses that equivalence does not depend on the image (symEquiv_same). The partition and the sum come from C04 and C05 through the representative of C174.
  Outcome: Partial: for given points without k-stars the weights are the sizes of the stars, not one (C176_given_no_star); everything else is proved. Negative point numbers are taken as errors. The q-points and lattices in the yaml file are left out.
* **C177** (partial) fc3 is the same with and without the C library. Modelled: the two branches taken after the ImportError. One tensor stored by Python is 27 rounds of the C loop that works in place, because the source row is not the target row (pyDistributeStep_eq); induction over targets. In the solution Python turns fc2 with the inverse of the rotation and C with its transpose: equal for orthogonal rotations (inverse_transpose); the list of turned fc2 is read at the position of the C buffer (getD_flatMap_range). For compact arrays Python does not map atoms to rows: a general theorem of failure.
  Outcome: Partial: distribution is proved equal for full arrays; for compact arrays the Python branch fails (C177_compact_fails). The solution is equal for orthogonal rotations. Inverses by numpy are taken as exact.
* **C178** (partial) Symmetry used to choose second displacements is exactly what the first displacement leaves. Modelled: the two filters, with the squared distance so that concrete cases can be computed; C178_same_functions shows that they are the functions in the model of C149 for the Euclidean norm. For directions of integers a tolerance up to one is exact. For positions, keeping an atom up to lattice translations is closed under products and inverses; the filter is this set if the tolerance separates positions. A witness shows that otherwise the result need not be a group.
  Outcome: Partial: exactness and the group property of the bond symmetry need a tolerance that separates positions that are kept from those that are not; C178_not_a_group is a case where it does not. For directions of integers nothing is assumed but a tolerance up to one. The rounding of numpy is any function that keeps integers.
* **C179** (proved) Cells a run on the command line uses, and what its check against a yaml file assures. Modelled: the start of a run as far as names of files, cells and matrices are concerned. What phonopy does with cells is a parameter: building a supercell, comparing cells, atoms of a primitive cell. Proved: the cells of every run that starts, that they are close to those of the file, that files that agree with themselves are accepted if building supercells does not depend on the unit, and that for this very reason a wrong unit is not noticed.
  Outcome: Building supercells, comparing cells and atoms of primitive cells are done in phonopy and are parameters; that they do not depend on the unit of length is a hypothesis of C179_own_file and C179_unit_not_checked only. How collect_cell_info chooses the calculator is not modelled.
* **C180** (partial) Files of thermal conductivity hold what was calculated, and conductivities follow from them. Modelled: the datasets created, in program order and with the error for a name that exists, and the arguments given by the writer for the relaxation time approximation. Proved for all arguments by induction over the datasets; then contributions of modes and totals are shown to follow from the datasets of the same file, using the model of the conductivity of C42 and C79. The formula in the documentation uses gamma alone: it holds without isotope and boundary scattering and fails with them.
  Outcome: Partial: the formula of the documentation holds without isotope and boundary scattering only; C180_recalculate is the formula with all linewidths, for all runs. The number of points sampled being the sum of weights is a hypothesis of C180_total; it is C78_total. Runs for selected bands write other shapes (C157) and are not in C180_recalculate.
* **C181** (partial) Memory requirements shown are those of the arrays a run makes. Modelled: the figures printed, in bytes, and sizes of items and shapes of the arrays. Proved by arithmetic for all sizes: equality for phonons, interaction strengths, pieces and, for all bands and an irreducible matrix, the collision matrix; how figures and arrays differ for selected bands, for a reducible collision matrix and for grid points.
  Outcome: Partial: for the full collision matrix the figure is right for all bands without --reducible-colmat (C181_collision_partial); C181_selected_bands, C181_reducible and C181_grid say how figures and arrays differ otherwise. Rounding on the screen and the figure for phonon properties are not modelled.

## Findings: where the code does not do what the property says

Each is proved by a witness theorem unless marked "read only" (seen in the source, not modelled).

Grids and triplets
* `c/triplet_grid.c` get_LQD_inv overwrites a sum, so the triplet chosen need not minimise |G| (C18_not_shortest).
* Sparse layout: triplets of a surface point may miss conservation of momentum (C15_sparse_surface_point); the fallback of
  the rotation lookup returns another point (C14_sparse_fallback_wrong); neighbours may be other images
  (C60_sparse_other_image).
* The arrays of the BZ grid hold eight images per point; a lattice with nine exists (C59_overflow).
* The documented Smith normal form need not satisfy the divisibility chain (C08_not_always_smith).
* Read only: `_get_grid_points_by_rotations(with_surface=False)` and its Python twin ignore the shift; the check in
  `_get_mock_symmetry_dataset` is weak; `BZGrid._set_rotations` ignores failure.

Tetrahedron method and spectra
* Strict inequalities drop weights at vertices (C22_zero_at_vertices, C22_not_continuous); weights of degenerate tetrahedra
  are not monotone (C21_not_monotone, C21_threshold_loss, C43_not_monotone).
* GammaDOSsmearing ignores the width the user gives (C84_sigma_ignored).
* A frequency axis made with a step may end below the highest two-phonon frequency (C100_step_short).

Force constants and datasets
* Transposition and drift correction of compact fc3 are wrong with half translations (C32_*, C33_compact_drift_left).
* `_get_orbits` shadows a loop variable (C58_two_representatives).
* Pairs on one atom and partial forces in dataset conversion (C49_same_atom, C49_some_forces, C49_getter_drops_first);
  numbers of forces are not checked (C50_phonon_short, C50_extra_ignored, C50_type2_unchecked); short FORCES_FC2 files are
  accepted (C46_reader_silent); displaced supercells reported as undisplaced (C85_not_undisplaced).
* Read only: type-2 writers ignore `filename`; the Python fallback of distribute_fc3 writes another row;
  generate_fc2_displacements with "auto" uses the fc3 supercell; missing lines leave `second_atom_nums` overwritten
  (harmless, C74_pairs).

Interaction strengths and self-energies
* Symmetrised strengths read uninitialised memory with flags or band selections (C61_*, C68_symmetrized_uninitialised).
* The non-analytical direction at the zone centre: C51_* (stale eigenvectors, direction of Wang's correction).
* The Gonze-Lee correction can break the acoustic sum rule (C88_gonze_not_acoustic).
* Phonons of another grid are accepted (C53_other_grid_accepted).
* Kramers-Kronig transform: C97_zero_inverted, C97_assertion, C97_repeated. Spectral function output: C99_log_without_text,
  C99_last_group, C99_name_ignored.
* Batches of negative size are empty (C29_negative_size).
* `ImagSelfEnergy.set_grid_point` and the setter of `frequency_points` keep integration weights and zero flags, so `run` combines
  those of the former grid point or points with the new ones (C146_stale_weights, C146_stale_points, C146_stale_flags); strengths
  calculated in part stay when frequency points are given (C146_partial_strengths); two objects with one `Interaction` object
  mix their grid points (C146_shared); the value shown after `set_grid_point` is the former one (C146_stale_value).
* `get_imag_self_energy` at band frequencies with details stores with the temperature index on the axis of smearing widths: it
  raises `IndexError` with more temperatures than widths (C148_fails), otherwise files and returned arrays hold other settings
  than stated (C148_at_bands) except for one width and one temperature; the returned list has one element for each width, not
  for each grid point (C148_at_bands, C148_at_points).
* Read only: "Existing ph-ph interaction is used" is printed when it
  is not; `dym_dynamical_matrices_with_dd_openmp_over_qpoints` uses a crystallographic direction in Wang's correction.

Conductivity
* The direct solution uses strengths from files with other zero flags after a warning, and then the flags of the file hide
  non-zero weights (C147_lbte_file); the relaxation time approximation refuses them (C147_file_refused).
* `--ave-pp` with a kappa file that has no `ave_pp` gives zero linewidths without a complaint (C147_averages_missing).
* Averaging over degenerate bands in the reducible layout leaves columns (C76_reducible_columns).
* A failing collision step followed by a retry counts the point twice (C78_counted_twice); repeated evaluation accumulates
  (C79_*); `return` for `continue` in Green-Kubo (C83_kubo_lost); boundary scattering with selected bands raises
  (C42_band_subset).
* Stored data: linewidths of the first temperature only (C55_wrong, C55_linewidths_first), missing band file (C55_missing),
  sigmas and meshes with equal names (C47_mesh_collision, C47_sigma_collision), single points (C56_single_point), joint DOS at
  the first temperature only (C54_second_missing).
* Elements of `sigmas` of other types are dropped (C57_others_dropped).
* Group velocity matrices lose interband elements where inversion leaves the wave vector unchanged (C106_interband_erased,
  C106_all_at_gamma); equivalent wave vectors are not recognised (C106_zone_boundary). The heat capacity matrix is not
  symmetric below the cutoff (C107_asymmetric).
* Read only: key "gamma_iso" against "gamma_isotope"; `_set_mode_kappa` index; generalized regular grid index into the BZ
  array in `_set_kappa_RTA_reducible_colmat`; `write_gamma` with Kubo subscripts None; `_allocate_values` zeroes linewidths of
  isotopes set by the user; the velocity operator compares norms of fractional coordinates.

Mode Grueneisen parameters
* Stale multiplicities and results (C104_stale_multiplicity, C104_stale_results); the lowest three modes at the zone centre
  are skipped by order (C101_lowest_at_gamma); parameters of degenerate modes depend on eigenvectors (C103_not_unique).

Direct solution
* Degenerate bands: the irreducible layout averages rows and columns over degenerate bands after the linewidths are added to the
  diagonal, the reducible layout before; the conductivities then differ, by all of it in the witness (C109_degenerate_differ).
* A second `set_kappa_at_sigmas` works on the eigenvectors left in the array of the collision matrix (C114_second).
* Collective phonons diagonalise `I Ω⁻¹` as if it were symmetric (C113_asymmetric); with solver 7 there are no eigenvalues to
  read.
* Mean free paths point against the velocity (C112_rta).
* Read only: with selected grid points the linewidths go to index 0 (`i_data = 0`) while velocities and heat capacities go to the
  index of the point; `_set_mode_kappa` tests `addresses[i]` with the index of an irreducible point and leaves the skipped
  entries as they are; `ConductivityWignerLBTE` with solver 7 stores None as eigenvalues; degenerate pairs enter neither of its
  two terms; `select_colmat_solver` without the C extension reads an unbound name and without scipy selects solver 1 even when
  it is not built; the heat capacity of the relaxation time approximation vanishes above 100 kT while the vectors of the direct
  solution do not.

Reduction of the reciprocal basis
* The C library returns size 0 for reciprocal cells with a volume below 1e-5 (primitive cells above 1e5 cubic angstrom), since the
  tolerance of the reduction is reused as the threshold of the determinant (C116_gridsys_small_cell).
* Without a reduced basis the window of 125 translates misses the nearest ones (C116_unreduced_misses); the absolute tolerance
  1e-5 on squared lengths leaves bases with very short vectors unreduced.
* Read only: two early returns of `gridsys_get_bz_grid_addresses` leak the small structure; the Python class uses the Delaunay
  reduction of phonopy where the C library uses Niggli; when C reports size 0 the Python class keeps empty arrays without an error.

Grid objects
* With generalized regular grids the tolerance of the BZ search is taken from the columns of the skewed matrix `Q / D` and can
  exceed the squared length of reciprocal lattice vectors. Translates that are not nearest are then stored, and the array of
  eight rows per grid point overflows for a body-centred orthorhombic cell with a reduced basis (C59_overflow_grg: 538 rows for
  224 places). Found by evaluation of the model also for the meshes 3x5x7 and 5x6x7 of body-centred cells.
* Nine mesh numbers on a cell that is not primitive, and numbers of values other than 1, 3 and 9, give a 1x1x1 mesh without an
  error (C118_mesh_ignored).
* The test that a transformation matrix of the caller has an integer inverse needs all nine entries to be off before it fires
  (C121_inverse_not_tested).
* Read only: a diagonal grid matrix with negative entries is used as mesh numbers without the Smith normal form; more than 48
  operations (24 with time reversal added) leave the list of operations empty without an error.

Histories of the `Phono3py` object
* A `dataset` assignment that raises loses the old dataset and leaves the cached supercells of the old one
  (C122_failed_assignment). Cached supercells keep old masses (C122_old_masses). A refused `phonon_dataset` leaves an empty
  dataset behind, after which `produce_fc2` always raises (C122_phonon_refused, C125_blocked).
* The `displacements` setter keeps the forces of the former displacements (C123_kept_forces); too few forces for a type-1 dataset
  raise after a part of them has been assigned (C123_mixed).
* After `init_phph_interaction`, assigning `fc3`, `fc2` or `band_indices` has no effect on calculations while the object, and
  the labels of output files, show the new values (C124_old_fc3, C124_old_fc2, C124_old_bands). Assigning `masses` gives a
  calculation with two sets of masses (C124_mixed_masses).
* `produce_fc3` leaves an fc2 of another dataset in place (C125_old_fc2). `produce_fc2` with a separate supercell but no dataset
  for it hands the other dataset to the solver (C125_wrong_cell).
* Read only: `_init_dynamical_matrix` sets acoustic frequencies at Gamma to zero in the array and prints a warning, but Gamma is
  not marked as solved, so the next solution overwrites them; `mlp` is defined twice, the second time without a setter;
  `run_imag_self_energy(temperatures=None)` sets [300] but passes None on; `save_phonon_mlp` checks `_mlp`; `_check_mlp_dataset`
  tests a key that is never present; the automatic number of displacements for fc2 uses the fc3 supercell; `detailed_gammas` is
  never initialised; without a dataset the message of `evaluate_mlp` is unreachable.
* The Python implementation of the interaction strength drops the prephase along a direction in which one member of the triplet
  has a zero address (C130_phase_dropped), leaves out `Q` on generalised grids (C130_general_grid), raises `IndexError` on compact
  force constants (C130_compact_raises) and keeps the flags of the previous run, as do constant strengths (C130_stale_flags).
* At 0 K the Python implementation of the imaginary self-energy has no test against the cutoff frequency
  (C132_zero_temperature); with averaged strengths it differs from C. Python smearing weights ignore `sigma_cutoff`
  (C133_cutoff_ignored).
* phono3py.yaml with forces holds no `included` marks (C135_included_lost): a dataset with a cutoff whose forces were assigned
  through the API or FORCES_FC3 comes back with the zero forces of uncalculated supercells as if calculated
  (C135_zero_forces_used). Pairs given without ids and not in order of the second atom come back reordered
  (C135_unordered).

Sources of force constants
* `phono3py.load` reads `fc3.hdf5` of the directory even if `forces_fc3_filename` is given (C136_hdf5_first), ignores
  `forces_fc3_filename` if phono3py.yaml has forces (C136_yaml_first), and raises for the documented pair of names
  (C136_sequence_raises).
* `phono3py-load` always writes `fc3.hdf5` again, so `--cutoff-fc3` truncates the stored file for good (C137_original_lost),
  repeated cutoffs add up (C137_cutoffs_accumulate), and an interruption during the superfluous writing loses the force
  constants (C137_interrupted).
* The `phono3py` command with `--jdos`, `--read-gamma`, ... and without `--fc2` ends in an `UnboundLocalError`
  (C138_skip_raises).
* `--cutoff-pair` at the stage of force constants has no effect if the displacements were made with a cutoff
  (C139_marks_first).

Stochastic force constants
* `ThirdOrderFC` gives spurious third-order force constants for harmonic forces if the mean displacement of the sample is not
  zero (C141_harmonic_fc3, C141_spurious_fc3); `_drift` is computed and never used. The result is not symmetric in the third
  index (C141_third_index_differs). The argument `T` of `SecondOrderFC.run` and `ThirdOrderFC.run` has no effect.
* `sigma_squared` sets `np.seterr(all="raise")` and restores it only on success (C142_failure): after a call at 0 K
  (C142_zero_temperature) or at too low temperature (C142_low_temperature) the whole process raises on floating-point errors.

Collision data at selected temperatures
* The documented collection of pieces with `--read-collision 1` (doc/direct-solution.md) reads all temperatures of the first
  file and gives every one of them the collision matrix and linewidths of the selected temperature (C143_pieces_one,
  C143_documented); two or more but not all indices raise (C143_pieces_raise). From whole files all selected temperatures
  get the linewidths of the first selected one (C143_full).
* `read_collision=True` of `Phono3py.run_thermal_conductivity` never reads anything (C143_flag).

Command options and setting tags
* The documented tag `N_U` (and `WRITE_LBTE_SOLUTION`) of a configuration file has no effect: tags are read in lower case and
  compared with a key in capital letters (C144_tag_ignored).
* The option `--pp-unit-conversion` has no effect (C144_unit_conversion_ignored): it is stored under another name than the one
  that is read.
* `--v2` works backwards with a configuration file: without it `FC3_R0_AVERAGE = .FALSE.` is ignored, with it
  `FC3_R0_AVERAGE = .TRUE.` wins (C144_v2_reversed).

Collecting forces
* Output files for fc2 are read with the calculator of the command line, never with the one recorded in phono3py_disp.yaml,
  which is used for fc3 (C145_fc2_calculator_ignored, C145_fc2_calculator; `_get_force_sets_fc2` overwrites its argument).
* For fc2 the number of files is not checked: too few raise an IndexError and leave an incomplete FORCES_FC2 which later reads
  without complaint (C145_fc2_too_few); superfluous ones are dropped (C145_fc2_too_many).
* If the dataset has displacements of all atoms and already forces, `--cf3`/`--cf2` write the old forces again
  (C145_old_forces); any number of files is accepted (C145_type2_number), and `--sp` raises when the calculator interface gives
  no energies (C145_params_energies).
* With a pair cutoff, forces collected with `--sp` fail an assertion when force constants are calculated by an external
  calculator, those collected into FORCES_FC3 do not (C145_params_cutoff).

Displacements
* When fc3 is made from forces, whether an operation keeps the first displacement is judged on the displacement in crystal
  coordinates with the absolute tolerance `symprec`, but generation judged the integer direction. If the displacement is below
  the tolerance (short displacement, long supercell or large `symprec`), all operations of the site count, without a warning, and
  the block of the displaced atom has the symmetry of the crystal at rest (C149_small_displacements, C149_length_matters).

Memory-saving linewidths
* A smearing width of 0.0 means the tetrahedron method when interaction strengths are stored, but Gaussians of width 0 in the
  default route of the relaxation time approximation, which tests for `None` (C150_zero_width).
* With symmetrisation in reciprocal space the default route uses uninitialised memory, the stored one does not
  (C68_symmetrized_uninitialised).

Joint density of states
* An object created without mesh numbers cannot be used: `initialize(mesh)` builds `JointDos` with the grid before it sets the grid,
  and raises (C151_initialize_raises).
* `initialize(mesh)` and `mesh_numbers = mesh` on an object that has a mesh leave the calculation on the old grid, while
  `mesh_numbers` and the names of files tell the new one; Γ is looked up in the new grid
  (C151_initialize_old_grid, C151_setter_old_grid).
* After a run with several grid points `joint_dos` has the values of the last one only (C151_last_only).
* `JointDos`: if the direction is removed at Γ, the phonons with the direction stay (C151_direction_kept).

Wigner transport equation, direct solution
* The attributes `kappa_TOT_exact` and `kappa_TOT_RTA` of `ConductivityWignerLBTE` are zero, always; only the files hold the sums
  (C152_totals). With a reducible collision matrix the coherences' part is zero and enters the totals as such (C152_parts).
* Group velocities of degenerate bands are, axis by axis, the eigenvalues of the velocity operator in ascending order, so that the
  components of one band do not belong together: squares along an axis add up rightly (C152_squares), products of different axes
  do not, and the populations' part can have the wrong sign (C152_degenerate_differ).
* A pair of bands that differ by exactly 1e-4 THz is in neither part of the direct solution (C152_coherences_difference).

**Combinations of options of the command (C153).** `--read-phonon` with `--write-phonon`
(phono3py_script.py:858-910): the harmonic solver is skipped, the unsolved arrays (only Gamma) are
written, and read back when the names agree, so a file of good phonons is lost and the calculation
runs with unsolved phonons (`C153_read_and_write`). `--spf` without a mesh or without grid points
is not in the tuples checked (1073-1083) and ends with an exception, in the latter case after all
phonons are solved (`C153_spectral_raises`); the same for `--write-phonon` alone without a mesh.
`--br --lbte` runs the direct solution although the run mode shown is that of the relaxation time
approximation (`C153_conductivity`). Isotope scattering takes the cutoff frequency of the option as
it is, not the default 0.01 of all other modes, and ignores the non-analytical direction
(`C153_isotope_values`); elements without isotope data end the run with exit status 0
(`C153_isotope_status`). Grueneisen parameters ignore the frequency conversion factor
(`C153_gruneisen_factor`).

**C154.** `phono3py-kaccum --pqj`, `--gruneisen` and `--gv-norm` fail for every file: the loop runs
over the rows of the sampling points instead of the points of the first row
(kaccum_script.py:41, `C154_scalar_raises`). `--gv --mfp` fails with two or more temperatures
(`C154_gv_mfp_raises`), `--no-gridsym` with a phonon file whose BZ grid has points on its surface
(`C154_no_gridsym_raises`). Files without `mode_kappa` give an exit with a message
(`C154_no_mode_kappa`). Mean free paths come from the phonon-phonon linewidths alone even when the
conductivity in the file includes isotope or boundary scattering (`C154_mfp_longer`); the dataset
`mean_free_path` it would prefer is never written.

**C155.** Isotope linewidths of degenerate modes are not averaged (conductivity/base.py:848-871), unlike
the phonon-phonon linewidths they are added to (rta.py:442-459): the value of a single degenerate
mode depends on the eigenvectors the solver happened to return, and so does a conductivity built from
inverse linewidths (`C155_degenerate_modes`: 1/10 and 0 for two modes with one set, 9/250 and 16/250
with another set of the same crystal).

**C156.** Names of calculators that are not known are dropped without a message
(create_force_constants.py:317-321): `--fc-calc "simfc|symfc"` computes both orders by symfc, and
`--fc-calc "symfc | alm"` (with blanks) uses the built-in solver for both (`C156_unknown_shifts`,
`C156_unknown_ignored`). In phono3py-load with random displacements the retry after
`ForceCalculatorRequiredError` (phono3py_script.py:614-628) finds fc2 already set by the fit of fc3, so
`|symfc` uses the options of fc3 for fc2 (`C156_fc2_from_fc3`), and it renames every calculator to symfc,
so `alm|` does not use ALM (`C156_fc2_renamed`). Options given as a dictionary are changed in place
(fc_calculator.py:154-155): fc2 gets the cutoff as well, and a second call with another cutoff keeps the
first (`C156_dict_shared`, `C156_dict_stale`).

**C157.** `set_gamma_from_file` (conductivity/utils.py:717-841) neither reads nor compares the
temperatures stored with the linewidths: files made at other temperatures are taken for those of the run
(`C157_other_temperatures`), and files with a single temperature are broadcast to all
(`C157_one_temperature`). A summary `kappa-m*.hdf5` of an earlier calculation is preferred to newer files
of grid points (`C157_old_summary`). `write_gamma` subscripts `mode_heat_capacities`, which is `None` for
the Green-Kubo class (utils.py:104-107, 145), so `--write-gamma` with Green-Kubo always raises
(`C157_kubo`); with isotope scattering and a band selection the scalar isotope linewidth is written with
compression, which h5py refuses (`C157_isotope_bands`). A run with `read_gamma`, `write_gamma` and a band
selection writes band k of the arrays (which hold all bands) into the file of the k-th selected band
(`C157_reread_bands`).

**C158.** `set_collision_from_file` stores into `lbte.gamma[i_sigma]` (conductivity/utils.py:1049-1050,
1085-1106); only the setter of `gamma` sets `_read_gamma` (base.py:545-548), so `_run_at_grid_point`
(direct_solution.py:363) computes linewidths and collision matrix of every grid point again.
`--read-collision` takes the temperatures from the files and nothing else (`C158_not_used`; the defects of
C55 and C143 therefore do not reach the result of a whole run). `write_LBTE_solution` in a run with
`grid_points` writes the arrays of the part as `collision-m*.hdf5` (direct_solution.py:1812-1821), and
every later `--read-collision` raises on its shape (`C158_part_solution`). `write_collision` takes the
isotope linewidths at position 0, those of the first grid point of the run (utils.py:430-441;
`C158_isotope_first`). `--read-collision 0` on files of grid points runs at all temperatures
(`C158_one_temperature`).

**Reading fc3 with symmetrisation (C159).** `_read_phono3py_fc3` calls `set_translational_invariance_fc3`
and `set_permutation_symmetry_fc3` for any shape (cui/create_force_constants.py:393-395), unlike
`produce_fc3` and the reading of fc2, which tell compact arrays apart. For compact arrays the mean over
the primitive atoms is subtracted (`C159_compact_sum`); with one primitive atom fc3 becomes zero
(`C159_compact_one`), silently, and so does the inverse lifetime of every phonon. `shape[0]` is not
checked against the crystal (`C159_any_lead`).

**Printed drift (C160).** `show_drift_fc3` for compact arrays prints the first value with its first two
letters exchanged (`C160_first_letters`), because they index the transposed array
(phonon3/fc3.py:618-625), and with half translations in the supercell the value itself is that of a
partly transposed array (`C160_first_invented`, `C160_first_missed`; the cause is C32).

**Making displacements (C161).** `generate_fc2_displacements` with `auto` estimates the number of
supercells from `self._supercell` and `self._symmetry` (api_phono3py.py:1428-1433; `C161_auto`). With the
matrix for fc2 in the input yaml only, create_supercells.py:93-96 looks at the settings, so the
displacements for fc2 are those made inside `generate_displacements` with the sign option of fc3
(api_phono3py.py:1355-1358; `C161_yaml_matrix`). `--rd-fc2` without a matrix makes a dataset without
supercell files (`C161_no_matrix`).

**Conversion to FORCE_SETS (C162).** `create_FORCE_SETS_from_FORCES_FCx` drops the return value of
`parse_FORCES_FC2` (cui/create_force_sets.py:248), so that a forces file with too few lines is an error
only because the dataset has no forces yet; with a yaml file that has forces they are written
(`C162_old_forces`). `create_FORCES_FC2_from_FORCE_SETS` prints lines for single displacements
(create_force_sets.py:199) for any FORCE_SETS and raises for the other kind (`C162_fs2f2_all_atoms`).

**Keys of the datasets in the yaml file (C163).** The compatibility rule of
`Phono3pyYamlLoader._parse_dataset` (interface/phono3py_yaml.py:154-159) reads `displacements` for fc2
whenever there is a matrix for fc2 and no key `phonon_displacements`; a file saved with displacements of
all atoms for fc3 and none for fc2 is such a file (`C163_taken_for_fc2`), and `load` then prefers them to
FORCES_FC2 (`C163_file_ignored`). The lines printed by `--fs2f2` use the old key and are lost in such a
file (`C163_old_key_lost`).

**Phonons kept by the isotope object (C164).** `Isotope.init_dynamical_matrix` (other/isotope.py:217-235)
and `set_nac_q_direction` (lines 237-240) leave solved phonons in place, so that after a run a new matrix
or direction has no effect (`C164_new_matrix`, `C164_new_direction`); `set_nac_q_direction(None)` does not
take a direction back.

**Runs with a machine-learning potential (C165).** The command hands any dataset to `mlp_dataset`
(cui/phono3py_script.py:1176-1178), whose check refuses one without forces, so that a yaml file with
displacements only ends the run although polymlp.yaml is there (`C165_displacements_only`;
doc/pypolymlp.md:233-236 promises otherwise, and cui/load.py:358 has the right condition). The search for
the potential (cui/create_force_constants.py:536-559) looks at the first name that begins with
`polymlp.yaml` only: polymlp.yaml.bak makes it train again and overwrite (`C165_backup`), polymlp.yaml.xz
is found but polymlp.yaml is opened (`C165_compressed`), and `"lzma"` in the list of suffixes lacks its dot.
`run_pypolymlp_to_compute_phonon_forces` is never called: with `--dim-fc2` there is no fc2 (`C165_no_fc2`).
`load(use_pypolymlp=True)` gives no fc3 (`C165_load`). `_check_mlp_dataset` (api_phono3py.py:2711) tests for
the key `supercell_energy` with the wrong sign; `save_phonon_mlp` (line 2306) tests for the potential of fc3
and refuses to save that of fc2 if there is only this one.

**Strengths without the average over the first atom (C167).** With `make_r0_average=False` (`--v2`) the
element of fc3 in reciprocal space takes the mean over equally distant images of the second atom and of the
third atom independently, as seen from the first (c/real_to_reciprocal.c:143-181). At wave vectors that do
not fit into the supercell the strength of one and the same process then depends on which of its phonons is
called the first (`C167_depends`: 4 and 1), so that the collision matrix is not symmetric before it is made
so.

**Files of triplet contributions (C168).** `_set_gamma_at_sigmas` (conductivity/rta.py:287-314) makes
`_gamma_detail_at_q` anew for every smearing width, and `write_gamma_detail` (conductivity/utils.py:348-400)
writes this one array into the files of all widths: with several widths every file holds the contributions of
the last one under the name and the `sigma` of another (`C168_last`, `C168_wrong`). With `--ave-pp` the run
raises `AttributeError` (line 294: no strengths in the `Interaction` object, `C168_averages_fail`); with
`--read-gamma` files without contributions are written or `TypeError` is raised (`C168_read_gamma`,
`C168_read_gamma_bands`).

**Files of interaction strengths (C169).** The name `pp-m…-g….hdf5` has no selection of bands
(file_IO.py:1213-1219), and `read_pp` compares only flags, and these only if the file has them
(conductivity/rta.py:268). Strengths written with `--bi 1 --full-pp --write-pp` are accepted by a run with
`--bi 2 --full-pp --read-pp`, which computes the linewidths of band 2 from the strengths of band 1
(`C169_bands`, `C169_bands_wrong`). `--read-gamma --write-pp` replaces each file by one without strengths
(`C169_erased`), and so does `--ave-pp --write-pp` (`C169_averages_written`).

**C171.** `sigmas = [None, 0.1]` (tetrahedron method and smearing) gives frequency shifts for 0.1 only, while
`[0.1, None]` gives shifts for 0.1 and 0.05 and then fails with `TypeError` when text files are written
(`C171_first_dropped`, `C171_later_fails`). `run_real_self_energy(frequency_points_at_bands=True, write_txt=True)` fails
with `TypeError` after everything is calculated (`C171_at_bands_fails`). The setter `sigmas` leaves out `numpy.int64`
and `numpy.float32` values without notice (`C171_setter`).

**C172.** `write_disp_fc3_yaml` keeps `included` of one second atom for later ones that have none, so they are read as
excluded although the returned number of supercells counts them (`C172_included_leaks`). It fails with `AssertionError`
for second atoms out of order (`C172_written_iff`), leaving a truncated file. A first displacement without second ones
is written as an empty key, which `parse_disp_fc3_yaml` cannot read (`C172_empty_unreadable`).

**C174.** `get_grid_points_by_rotations` without surface treatment (the default) rotates the integer address and leaves
out the half-grid shift `PS`. On a `BZGrid(..., is_shift=...)` whose shift is not a mesh translation, the point returned
for the inversion is never equivalent to the inverted q-point (`C174_shift_ignored`). With `with_surface=True` the C code
includes the shift.

**C175.** The Python and C integration weights of triplets differ in two cases. C replaces imaginary (negative)
frequencies by zero at tetrahedron vertices, Python does not (`C175_imaginary_differs`). Python ignores `sigma_cutoff`
(`C175_cutoff_ignored`).

**C176.** With `is_kappa_star=False` and given grid points, a conductivity run returns the sizes of the stars as grid
weights (and irreducible points of the full symmetry) instead of one; without given points the weights are one
(`C176_given_no_star`).

**C177.** Without the C library `distribute_fc3` indexes rows of fc3 by supercell atoms and not through `s2compact`. A
compact fc3 then ends with an `IndexError` whenever a target atom has a supercell index beyond the number of rows
(`C177_compact_fails`).

**C178.** `get_bond_symmetry` compares distances with the tolerance for each rotation alone. If an atom is off a
fourfold axis by between 0.5 and 0.71 of the tolerance, the result has the fourfold rotation and not its square, so it is
not a group (`C178_not_a_group`).

**C179.** `check_supercell_in_yaml` multiplies the supercells of the file by the same factor as the unit cell, so it
cannot notice that the unit of length is wrong: a file in angstrom used with the option of a calculator with another unit
is accepted, and all lattices are too large by the factor (`C179_unit_not_checked`, if `collect_cell_info` of phonopy
lets the option of the calculator decide). Files written at the end of a run are in angstrom, as the object is made
without a calculator (phono3py_script.py:494-507).

**C180.** doc/hdf5_howto.md gives `kappa_unit_conversion * heat_capacity * gv_by_gv / (2 * gamma)` for `mode_kappa`. With
isotope or boundary scattering this is wrong for every mode that contributes, since `gamma` does not have their
linewidths (`C180_documented_fails`; `C180_recalculate` is what holds). `mean_free_path` is calculated and handed to the
writer in direct solutions, and never written (`C180_mean_free_path`).

**C181.** The memory shown for the collision matrix is that of an irreducible one also with `--reducible-colmat`; what is
needed is larger by the square of (points in the mesh) / (3 x irreducible points) (`C181_reducible`: 13.5 GB for 0.13 GB
shown with 19 x 19 x 19 points and 220 irreducible ones). The figure for grid points counts items of four bytes, while
arrays have eight, and leaves out one map (`C181_grid`).
