import Verif.Lemmas.Adds
import Verif.Lemmas.AllShortest
import Verif.Lemmas.BZGrid
import Verif.Lemmas.BZNearest
import Verif.Lemmas.Bands
import Verif.Lemmas.Blocks
import Verif.Lemmas.Collision
import Verif.Lemmas.CollisionElements
import Verif.Lemmas.CommensurateFc3
import Verif.Lemmas.CreateForceSets
import Verif.Lemmas.DeltaFc2
import Verif.Lemmas.DeltaFc2Data
import Verif.Lemmas.DeltaFc2Rows
import Verif.Lemmas.DynMat
import Verif.Lemmas.Fc3
import Verif.Lemmas.Fc3Rotation
import Verif.Lemmas.Fc3Solve
import Verif.Lemmas.Grid
import Verif.Lemmas.Gruneisen
import Verif.Lemmas.IntegrationWeight
import Verif.Lemmas.Interaction
import Verif.Lemmas.Invariance
import Verif.Lemmas.IrMap
import Verif.Lemmas.IseObject
import Verif.Lemmas.Isotope
import Verif.Lemmas.LBTE
import Verif.Lemmas.LBTEFlat
import Verif.Lemmas.LBTEReduction
import Verif.Lemmas.Neighbor
import Verif.Lemmas.Niggli
import Verif.Lemmas.Pinv
import Verif.Lemmas.PointGroup
import Verif.Lemmas.Reciprocal
import Verif.Lemmas.SelfEnergy
import Verif.Lemmas.Snf
import Verif.Lemmas.SnfFinal
import Verif.Lemmas.SpectralSum
import Verif.Lemmas.StoredGamma
import Verif.Lemmas.Strength
import Verif.Lemmas.SymQ
import Verif.Lemmas.TetraMono
import Verif.Lemmas.TetraReal
import Verif.Lemmas.TetraSpec
import Verif.Lemmas.TetraTable
import Verif.Lemmas.Tetrahedron
import Verif.Lemmas.Transform
import Verif.Lemmas.Transpose
import Verif.Lemmas.Triplet
import Verif.Lemmas.TripletLookup
import Verif.Lemmas.TripletTotal
import Verif.Lemmas.Unimodular
import Verif.Lemmas.Window
import Verif.Lemmas.Writes
import Verif.Model.AllShortest
import Verif.Model.ApiData
import Verif.Model.ApiPhonon
import Verif.Model.BZGrid
import Verif.Model.Bands
import Verif.Model.BondSymmetry
import Verif.Model.Collision
import Verif.Model.CommandRun
import Verif.Model.Complex
import Verif.Model.Conductivity
import Verif.Model.ConvertForces
import Verif.Model.CreateForceSets
import Verif.Model.CreateSupercells
import Verif.Model.Dataset
import Verif.Model.DeltaFc2
import Verif.Model.DirectRun
import Verif.Model.DispYaml
import Verif.Model.DynMat
import Verif.Model.ExpandPy
import Verif.Model.Fc3
import Verif.Model.Fc3Py
import Verif.Model.Fc3Solve
import Verif.Model.FcCalculator
import Verif.Model.FileName
import Verif.Model.GammaDetail
import Verif.Model.Grid
import Verif.Model.GridInfo
import Verif.Model.GridObject
import Verif.Model.Gruneisen
import Verif.Model.GruneisenRun
import Verif.Model.InitRun
import Verif.Model.IntegrationWeight
import Verif.Model.Interaction
import Verif.Model.InteractionPy
import Verif.Model.IseObject
import Verif.Model.IseRoutines
import Verif.Model.IseRuns
import Verif.Model.Isotope
import Verif.Model.IsotopeObject
import Verif.Model.JdosObject
import Verif.Model.Kaccum
import Verif.Model.KaccumScript
import Verif.Model.KappaDatasets
import Verif.Model.LBTE
import Verif.Model.LoadForces
import Verif.Model.Lowmem
import Verif.Model.MemoryShown
import Verif.Model.MlpRun
import Verif.Model.Niggli
import Verif.Model.Orbits
import Verif.Model.PPCollision
import Verif.Model.PairCutoff
import Verif.Model.Phono3pyYaml
import Verif.Model.PhononRotation
import Verif.Model.PhononSolver
import Verif.Model.PpFile
import Verif.Model.PpRuns
import Verif.Model.ReadFc3
import Verif.Model.RealSelfEnergy
import Verif.Model.RotatePoints
import Verif.Model.RtaRun
import Verif.Model.SelfEnergy
import Verif.Model.SelfEnergyPy
import Verif.Model.Settings
import Verif.Model.ShiftFiles
import Verif.Model.ShowDrift
import Verif.Model.Snf
import Verif.Model.SpectralObject
import Verif.Model.SpectralOutput
import Verif.Model.Sscha
import Verif.Model.StoredGamma
import Verif.Model.StoredSelect
import Verif.Model.Tetrahedron
import Verif.Model.Transform
import Verif.Model.Triplet
import Verif.Model.Vec
import Verif.Model.Velocity
import Verif.Model.WeightsPy
import Verif.Model.WignerLBTE
import Verif.Model.Writes
import Verif.Model.YamlDatasets
import Verif.Props.AllShortest
import Verif.Props.ApiData
import Verif.Props.ApiPhonon
import Verif.Props.BZGrid
import Verif.Props.BZRotation
import Verif.Props.Bands
import Verif.Props.BondSymmetry
import Verif.Props.Collision
import Verif.Props.CollisionElements
import Verif.Props.CommandRun
import Verif.Props.CommensurateFc3
import Verif.Props.CondIter
import Verif.Props.ConvertForces
import Verif.Props.CreateForceSets
import Verif.Props.CreateSupercells
import Verif.Props.Dataset
import Verif.Props.DeltaFc2
import Verif.Props.DeltaFc2Example
import Verif.Props.DeltaFc2Small
import Verif.Props.DirectRun
import Verif.Props.DispYaml
import Verif.Props.Duplicates
import Verif.Props.DynMat
import Verif.Props.DynMatReal
import Verif.Props.EigvecRotation
import Verif.Props.ExpandPy
import Verif.Props.Fc3
import Verif.Props.Fc3Py
import Verif.Props.Fc3Solve
import Verif.Props.FcCalculator
import Verif.Props.FileName
import Verif.Props.FrequencyPoints
import Verif.Props.GammaDetail
import Verif.Props.Grid
import Verif.Props.GridIndex
import Verif.Props.GridInfo
import Verif.Props.GridObject
import Verif.Props.GridSymmetry
import Verif.Props.Gruneisen
import Verif.Props.GruneisenReal
import Verif.Props.GruneisenRun
import Verif.Props.HeatCapacityMatrix
import Verif.Props.InitRun
import Verif.Props.IntegrationWeight
import Verif.Props.Interaction
import Verif.Props.InteractionPy
import Verif.Props.InteractionSymmetry
import Verif.Props.IseCode
import Verif.Props.IseObject
import Verif.Props.IseRuns
import Verif.Props.Isotope
import Verif.Props.IsotopeObject
import Verif.Props.IsotopeSymmetry
import Verif.Props.JdosCode
import Verif.Props.JdosObject
import Verif.Props.JointDos
import Verif.Props.Kaccum
import Verif.Props.KaccumScript
import Verif.Props.Kappa
import Verif.Props.KappaDatasets
import Verif.Props.KappaSymmetry
import Verif.Props.KappaWigner
import Verif.Props.LBTE
import Verif.Props.LBTELayout
import Verif.Props.LBTELayoutExamples
import Verif.Props.LBTEModes
import Verif.Props.LinewidthSymmetry
import Verif.Props.LoadForces
import Verif.Props.Lowmem
import Verif.Props.MemoryShown
import Verif.Props.MlpRun
import Verif.Props.Neighbor
import Verif.Props.Niggli
import Verif.Props.Orbits
import Verif.Props.PPCollision
import Verif.Props.PairCutoff
import Verif.Props.Phono3pyYaml
import Verif.Props.PhononRotation
import Verif.Props.PhononSolver
import Verif.Props.Pinv
import Verif.Props.PpFile
import Verif.Props.PpRuns
import Verif.Props.ReadFc3
import Verif.Props.RealSelfEnergy
import Verif.Props.RotatePoints
import Verif.Props.RtaRun
import Verif.Props.SelfEnergy
import Verif.Props.SelfEnergyPy
import Verif.Props.Settings
import Verif.Props.ShiftFiles
import Verif.Props.ShowDrift
import Verif.Props.Snf
import Verif.Props.SpectralFunction
import Verif.Props.SpectralObject
import Verif.Props.SpectralOutput
import Verif.Props.Sscha
import Verif.Props.StoredCollision
import Verif.Props.StoredGamma
import Verif.Props.StoredSelect
import Verif.Props.Tetrahedron
import Verif.Props.Triplet
import Verif.Props.TripletLookup
import Verif.Props.Velocity
import Verif.Props.VelocityExamples
import Verif.Props.VelocityProducts
import Verif.Props.WeightsPy
import Verif.Props.WignerLBTE
import Verif.Props.YamlDatasets
import Verif.Spec.AllShortest
import Verif.Spec.ApiData
import Verif.Spec.ApiPhonon
import Verif.Spec.Array
import Verif.Spec.BZGrid
import Verif.Spec.Bands
import Verif.Spec.BondSymmetry
import Verif.Spec.Collision
import Verif.Spec.CommensurateFc3
import Verif.Spec.Conductivity
import Verif.Spec.ConvertForces
import Verif.Spec.CreateForceSets
import Verif.Spec.CreateSupercells
import Verif.Spec.Dataset
import Verif.Spec.DeltaFc2
import Verif.Spec.DirectRun
import Verif.Spec.DispYaml
import Verif.Spec.DynMat
import Verif.Spec.ExpandPy
import Verif.Spec.Fc3
import Verif.Spec.Fc3Py
import Verif.Spec.Fc3Solve
import Verif.Spec.Fc3Symmetry
import Verif.Spec.FileName
import Verif.Spec.GammaDetail
import Verif.Spec.Grid
import Verif.Spec.GridInfo
import Verif.Spec.GridMatrix
import Verif.Spec.GridObject
import Verif.Spec.Gruneisen
import Verif.Spec.InitRun
import Verif.Spec.Interaction
import Verif.Spec.IseObject
import Verif.Spec.Isotope
import Verif.Spec.KappaDatasets
import Verif.Spec.LBTE
import Verif.Spec.MemoryShown
import Verif.Spec.MlpRun
import Verif.Spec.Niggli
import Verif.Spec.PhononRotation
import Verif.Spec.RealSelfEnergy
import Verif.Spec.Reciprocal
import Verif.Spec.RotatePoints
import Verif.Spec.RtaRun
import Verif.Spec.SelfEnergy
import Verif.Spec.Settings
import Verif.Spec.ShiftFiles
import Verif.Spec.ShowDrift
import Verif.Spec.SpectralObject
import Verif.Spec.StoredGamma
import Verif.Spec.Tetrahedron
import Verif.Spec.Triplet
import Verif.Spec.Velocity
import Verif.Spec.WeightsPy
import Verif.Spec.YamlDatasets
