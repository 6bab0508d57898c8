import Verif.Model.Alias
import Verif.Model.AlignObj
import Verif.Model.ArrHeader
import Verif.Model.ArrayIO
import Verif.Model.Ase
import Verif.Model.AtomicData
import Verif.Model.Batch
import Verif.Model.Calc
import Verif.Model.Cell
import Verif.Model.Cif
import Verif.Model.Cif2any
import Verif.Model.Comb
import Verif.Model.Common
import Verif.Model.Compare
import Verif.Model.ConvTable
import Verif.Model.Convert
import Verif.Model.CoordNd
import Verif.Model.Cp2k
import Verif.Model.Cp2kOut
import Verif.Model.Cp2kRead
import Verif.Model.Cp2kScfRead
import Verif.Model.Cpmd
import Verif.Model.CpmdRead
import Verif.Model.CpmdScfRead
import Verif.Model.CrossVal
import Verif.Model.CutDir
import Verif.Model.CutScripts
import Verif.Model.Data2D
import Verif.Model.Dcd
import Verif.Model.DcdRead
import Verif.Model.Debye
import Verif.Model.Derived
import Verif.Model.Dispersion
import Verif.Model.DistTraj
import Verif.Model.Dists
import Verif.Model.Dump
import Verif.Model.Eos
import Verif.Model.ExternEos
import Verif.Model.FftLoop
import Verif.Model.FileRepl
import Verif.Model.Fir
import Verif.Model.Fit1D
import Verif.Model.Fqha
import Verif.Model.FullPath
import Verif.Model.Gather
import Verif.Model.Getters
import Verif.Model.GettersLife
import Verif.Model.Gibbs
import Verif.Model.GibbsFit
import Verif.Model.GibbsHist
import Verif.Model.Gofr
import Verif.Model.Grep
import Verif.Model.H5
import Verif.Model.Ibrav
import Verif.Model.InnerPts
import Verif.Model.Interpol
import Verif.Model.Lammps
import Verif.Model.LammpsRead
import Verif.Model.LmpData
import Verif.Model.MplPlot
import Verif.Model.NdArray
import Verif.Model.Normalize
import Verif.Model.Num
import Verif.Model.ParserUnits
import Verif.Model.Pbc
import Verif.Model.PbcObj
import Verif.Model.Pdb
import Verif.Model.Peaks
import Verif.Model.Phonon
import Verif.Model.PlotDisp
import Verif.Model.Poly
import Verif.Model.PolyStr
import Verif.Model.PwHead
import Verif.Model.PwMd
import Verif.Model.PwOut
import Verif.Model.PwRead
import Verif.Model.PwText
import Verif.Model.PwVcMd
import Verif.Model.Pydos
import Verif.Model.RandomStruct
import Verif.Model.Rbf
import Verif.Model.RbfJax
import Verif.Model.ReadMd
import Verif.Model.Regex
import Verif.Model.ReplKeys
import Verif.Model.Rpdf
import Verif.Model.RunSh
import Verif.Model.ScfOut
import Verif.Model.Sgroup
import Verif.Model.Shell
import Verif.Model.Signal
import Verif.Model.SliceView
import Verif.Model.Solvate
import Verif.Model.SplineDeriv
import Verif.Model.Sql
import Verif.Model.SqlQuery
import Verif.Model.SqlTx
import Verif.Model.StructNeigh
import Verif.Model.Styles
import Verif.Model.Symm
import Verif.Model.Thermo
import Verif.Model.ThermoNan
import Verif.Model.Traj
import Verif.Model.TrajSmooth
import Verif.Model.View
import Verif.Model.WriteLmp
import Verif.Props.Alias
import Verif.Props.AlignObj
import Verif.Props.ArrHeader
import Verif.Props.ArrayIO
import Verif.Props.Ase
import Verif.Props.AtomicData
import Verif.Props.Batch
import Verif.Props.Calc
import Verif.Props.Cell
import Verif.Props.Cell2
import Verif.Props.Cell3
import Verif.Props.Cif
import Verif.Props.Cif2any
import Verif.Props.Classical
import Verif.Props.Comb
import Verif.Props.Common
import Verif.Props.Compare
import Verif.Props.ConvTable
import Verif.Props.Convert
import Verif.Props.CoordNd
import Verif.Props.Cp2k
import Verif.Props.Cp2kOut
import Verif.Props.Cp2kRead
import Verif.Props.Cp2kScfRead
import Verif.Props.Cpmd
import Verif.Props.CpmdRead
import Verif.Props.CpmdScfRead
import Verif.Props.CrossVal
import Verif.Props.CutDir
import Verif.Props.CutScripts
import Verif.Props.Data2D
import Verif.Props.Dcd
import Verif.Props.DcdRead
import Verif.Props.DcdReadEx
import Verif.Props.Debye
import Verif.Props.Derived
import Verif.Props.DerivedEx
import Verif.Props.DerivedMain
import Verif.Props.DerivedTraj
import Verif.Props.Dispersion
import Verif.Props.DistTraj
import Verif.Props.Dists
import Verif.Props.Dump
import Verif.Props.Eos
import Verif.Props.EosPhys
import Verif.Props.ExternEos
import Verif.Props.FftLoop
import Verif.Props.FileRepl
import Verif.Props.Fir
import Verif.Props.Fit1D
import Verif.Props.Fourier
import Verif.Props.Fqha
import Verif.Props.FullPath
import Verif.Props.Gather
import Verif.Props.Getters
import Verif.Props.GettersLife
import Verif.Props.Gibbs
import Verif.Props.GibbsHist
import Verif.Props.GibbsPress
import Verif.Props.Gofr
import Verif.Props.Grep
import Verif.Props.H5
import Verif.Props.Ibrav
import Verif.Props.InnerPts
import Verif.Props.Interpol
import Verif.Props.Invariance
import Verif.Props.KGrid
import Verif.Props.Lammps
import Verif.Props.LammpsRead
import Verif.Props.LmpData
import Verif.Props.MplPlot
import Verif.Props.NdArray
import Verif.Props.Neigh
import Verif.Props.Normalize
import Verif.Props.Num
import Verif.Props.Num2
import Verif.Props.Num3
import Verif.Props.Num4
import Verif.Props.OrderSimilar
import Verif.Props.Parallel
import Verif.Props.ParserShape
import Verif.Props.ParserUnits
import Verif.Props.Pbc
import Verif.Props.PbcObj
import Verif.Props.Pdb
import Verif.Props.Pdos
import Verif.Props.PdosInv
import Verif.Props.PdosMode
import Verif.Props.Peaks
import Verif.Props.Phonon
import Verif.Props.PhononEx
import Verif.Props.PhononMain
import Verif.Props.PhononUnit
import Verif.Props.PlotDisp
import Verif.Props.Poly
import Verif.Props.PolyInv
import Verif.Props.PolyStr
import Verif.Props.PwHead
import Verif.Props.PwMd
import Verif.Props.PwOut
import Verif.Props.PwOut2
import Verif.Props.PwRead
import Verif.Props.PwText
import Verif.Props.PwVcMd
import Verif.Props.Pydos
import Verif.Props.RandomStruct
import Verif.Props.Rbf
import Verif.Props.RbfInv
import Verif.Props.RbfJax
import Verif.Props.RbfPD
import Verif.Props.RbfReg
import Verif.Props.ReadMd
import Verif.Props.Regex
import Verif.Props.ReplKeys
import Verif.Props.Rmsd
import Verif.Props.Rpdf
import Verif.Props.RpdfScell
import Verif.Props.RunSh
import Verif.Props.Scell
import Verif.Props.ScellAlg
import Verif.Props.ScfOut
import Verif.Props.Sgroup
import Verif.Props.Shell
import Verif.Props.Signal
import Verif.Props.SliceView
import Verif.Props.Sliceput
import Verif.Props.Smooth
import Verif.Props.SmoothShape
import Verif.Props.Solvate
import Verif.Props.Spectrum
import Verif.Props.SplineDeriv
import Verif.Props.Sql
import Verif.Props.SqlQuery
import Verif.Props.SqlTx
import Verif.Props.StructNeigh
import Verif.Props.Study
import Verif.Props.StudyDirs
import Verif.Props.Styles
import Verif.Props.Symm
import Verif.Props.Thermo
import Verif.Props.Thermo2
import Verif.Props.ThermoLaws
import Verif.Props.ThermoNan
import Verif.Props.Traj
import Verif.Props.Traj2
import Verif.Props.Traj3
import Verif.Props.TrajSmooth
import Verif.Props.Velocity
import Verif.Props.View
import Verif.Props.WriteLmp
import Verif.Spec.Alias
import Verif.Spec.AlignObj
import Verif.Spec.ArrHeader
import Verif.Spec.Ase
import Verif.Spec.AtomicData
import Verif.Spec.Batch
import Verif.Spec.Calc
import Verif.Spec.Cif
import Verif.Spec.Cif2any
import Verif.Spec.Comb
import Verif.Spec.Common
import Verif.Spec.Compare
import Verif.Spec.ConvTable
import Verif.Spec.Convert
import Verif.Spec.Cp2k
import Verif.Spec.Cp2kOut
import Verif.Spec.Cp2kRead
import Verif.Spec.Cp2kScfRead
import Verif.Spec.Cpmd
import Verif.Spec.CpmdRead
import Verif.Spec.CpmdScfRead
import Verif.Spec.CrossVal
import Verif.Spec.CutDir
import Verif.Spec.CutScripts
import Verif.Spec.Data2D
import Verif.Spec.Dcd
import Verif.Spec.DcdRead
import Verif.Spec.Debye
import Verif.Spec.Derived
import Verif.Spec.Dispersion
import Verif.Spec.DistTraj
import Verif.Spec.Dists
import Verif.Spec.Dump
import Verif.Spec.Eos
import Verif.Spec.EosPhys
import Verif.Spec.ExternEos
import Verif.Spec.FftLoop
import Verif.Spec.Fir
import Verif.Spec.Fit1D
import Verif.Spec.Fqha
import Verif.Spec.FullPath
import Verif.Spec.Gather
import Verif.Spec.Getters
import Verif.Spec.GettersLife
import Verif.Spec.GibbsHist
import Verif.Spec.GibbsPress
import Verif.Spec.Gofr
import Verif.Spec.H5
import Verif.Spec.Ibrav
import Verif.Spec.InnerPts
import Verif.Spec.Interpol
import Verif.Spec.Invariance
import Verif.Spec.KGrid
import Verif.Spec.Lammps
import Verif.Spec.LammpsRead
import Verif.Spec.LmpData
import Verif.Spec.MplPlot
import Verif.Spec.NdArray
import Verif.Spec.Normalize
import Verif.Spec.Num
import Verif.Spec.OrderSimilar
import Verif.Spec.ParserUnits
import Verif.Spec.Pbc
import Verif.Spec.PbcObj
import Verif.Spec.Pdb
import Verif.Spec.PdosInv
import Verif.Spec.PdosMode
import Verif.Spec.Peaks
import Verif.Spec.Phonon
import Verif.Spec.PlotDisp
import Verif.Spec.Poly
import Verif.Spec.PolyInv
import Verif.Spec.PolyStr
import Verif.Spec.PwHead
import Verif.Spec.PwMd
import Verif.Spec.PwOut
import Verif.Spec.PwRead
import Verif.Spec.PwText
import Verif.Spec.PwVcMd
import Verif.Spec.Pydos
import Verif.Spec.RandomStruct
import Verif.Spec.Rbf
import Verif.Spec.RbfJax
import Verif.Spec.RbfReg
import Verif.Spec.ReplKeys
import Verif.Spec.Rpdf
import Verif.Spec.RunSh
import Verif.Spec.ScellAlg
import Verif.Spec.ScfOut
import Verif.Spec.Sgroup
import Verif.Spec.Shell
import Verif.Spec.Signal
import Verif.Spec.SliceView
import Verif.Spec.SmoothShape
import Verif.Spec.Solvate
import Verif.Spec.SplineDeriv
import Verif.Spec.Sql
import Verif.Spec.SqlQuery
import Verif.Spec.SqlTx
import Verif.Spec.Styles
import Verif.Spec.Symm
import Verif.Spec.Thermo
import Verif.Spec.ThermoNan
import Verif.Spec.Traj
import Verif.Spec.TrajSmooth
import Verif.Spec.Velocity
import Verif.Spec.View
import Verif.Spec.WriteLmp
