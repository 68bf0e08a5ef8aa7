import Verif.Base.All2
import Verif.Base.Base64
import Verif.Base.BinText
import Verif.Base.ByteIO
import Verif.Base.Bytes
import Verif.Base.Dict
import Verif.Base.Err
import Verif.Base.File
import Verif.Base.Groups
import Verif.Base.Hdf
import Verif.Base.Hex
import Verif.Base.IdMap
import Verif.Base.Infix
import Verif.Base.Lines
import Verif.Base.ListX
import Verif.Base.Num
import Verif.Base.Regex
import Verif.Base.Runs
import Verif.Base.Scan
import Verif.Base.Sort
import Verif.Base.Text
import Verif.Base.Unique
import Verif.Base.Words
import Verif.Base.Xml
import Verif.Model.Abaqus
import Verif.Model.Ansys
import Verif.Model.Avsucd
import Verif.Model.Cgns
import Verif.Model.Cli
import Verif.Model.CliMdpa
import Verif.Model.Common
import Verif.Model.Cxml
import Verif.Model.Dim
import Verif.Model.Dolfin
import Verif.Model.Effects
import Verif.Model.Exodus
import Verif.Model.Flac3d
import Verif.Model.Gmsh
import Verif.Model.Gmsh22
import Verif.Model.Gmsh40
import Verif.Model.Gmsh41
import Verif.Model.H5m
import Verif.Model.Helpers
import Verif.Model.Hmf
import Verif.Model.Info
import Verif.Model.Mdpa
import Verif.Model.Med
import Verif.Model.Medit
import Verif.Model.Mesh
import Verif.Model.Nastran
import Verif.Model.Netgen
import Verif.Model.Neuroglancer
import Verif.Model.Obj
import Verif.Model.Off
import Verif.Model.Permas
import Verif.Model.Ply
import Verif.Model.Stl
import Verif.Model.Su2
import Verif.Model.Svg
import Verif.Model.Tables
import Verif.Model.Tecplot
import Verif.Model.Tetgen
import Verif.Model.Types
import Verif.Model.Ugrid
import Verif.Model.VtkCommon
import Verif.Model.VtkFile
import Verif.Model.VtkLegacy
import Verif.Model.VtuArray
import Verif.Model.VtuCells
import Verif.Model.VtuFile
import Verif.Model.Wkt
import Verif.Model.Xdmf
import Verif.Model.XdmfFile
import Verif.Model.XdmfSeries
import Verif.Model.XdmfSeriesFile
import Verif.Proofs.Abaqus
import Verif.Proofs.AbaqusBack
import Verif.Proofs.AbaqusInclude
import Verif.Proofs.AbaqusMesh
import Verif.Proofs.AbaqusRead
import Verif.Proofs.AbaqusSets
import Verif.Proofs.AbaqusTrip
import Verif.Proofs.AbaqusWrite
import Verif.Proofs.Ansys
import Verif.Proofs.AnsysRefuse
import Verif.Proofs.AnsysWrite
import Verif.Proofs.Avsucd
import Verif.Proofs.Common
import Verif.Proofs.Cxml
import Verif.Proofs.Dim
import Verif.Proofs.Dolfin
import Verif.Proofs.DolfinWrite
import Verif.Proofs.Exodus
import Verif.Proofs.Flac3d
import Verif.Proofs.Flac3dBack
import Verif.Proofs.Flac3dBinary
import Verif.Proofs.Flac3dFinish
import Verif.Proofs.Flac3dWrite
import Verif.Proofs.Gmsh
import Verif.Proofs.Gmsh22
import Verif.Proofs.Gmsh22W
import Verif.Proofs.Gmsh40
import Verif.Proofs.Gmsh40Fail
import Verif.Proofs.Gmsh40Read
import Verif.Proofs.Gmsh40W
import Verif.Proofs.Gmsh41
import Verif.Proofs.Gmsh41Fail
import Verif.Proofs.Gmsh41Read
import Verif.Proofs.Gmsh41W
import Verif.Proofs.Gmsh41W2
import Verif.Proofs.Gmsh41W3
import Verif.Proofs.Gmsh41W4
import Verif.Proofs.Gmsh41W5
import Verif.Proofs.Grid
import Verif.Proofs.H5m
import Verif.Proofs.Helpers
import Verif.Proofs.Mdpa
import Verif.Proofs.Med
import Verif.Proofs.Medit
import Verif.Proofs.MeditText
import Verif.Proofs.Mesh
import Verif.Proofs.MeshSets
import Verif.Proofs.MeshViews
import Verif.Proofs.Nastran
import Verif.Proofs.NastranBack
import Verif.Proofs.NastranRead
import Verif.Proofs.NastranTrip
import Verif.Proofs.NastranWrite
import Verif.Proofs.Netgen
import Verif.Proofs.Permas
import Verif.Proofs.Ply
import Verif.Proofs.Runs
import Verif.Proofs.Su2
import Verif.Proofs.Svg
import Verif.Proofs.Tecplot
import Verif.Proofs.TecplotCells
import Verif.Proofs.TecplotRead
import Verif.Proofs.TecplotWrite
import Verif.Proofs.TecplotZone
import Verif.Proofs.Types
import Verif.Proofs.Ugrid
import Verif.Proofs.Vtk
import Verif.Proofs.VtkFile
import Verif.Proofs.VtkFileMesh
import Verif.Proofs.VtkFileRead
import Verif.Proofs.VtkFileWrite
import Verif.Proofs.VtkLegacy
import Verif.Proofs.VtkRefuse
import Verif.Proofs.VtuArray
import Verif.Proofs.VtuCells
import Verif.Proofs.VtuFile
import Verif.Proofs.VtuFileMesh
import Verif.Proofs.VtuFileWrite
import Verif.Proofs.Wkt
import Verif.Proofs.Xdmf
import Verif.Proofs.XdmfFile
import Verif.Proofs.XdmfMixed
import Verif.Proofs.XdmfSeries
import Verif.Proofs.XdmfSeriesFile
import Verif.Proofs.XmlEsc
import Verif.Proofs.XmlLay
import Verif.Props.Abaqus
import Verif.Props.AbaqusInclude
import Verif.Props.Ansys
import Verif.Props.Avsucd
import Verif.Props.Cgns
import Verif.Props.Cli
import Verif.Props.CliConvert
import Verif.Props.CliMdpa
import Verif.Props.Common
import Verif.Props.Cxml
import Verif.Props.Dolfin
import Verif.Props.DolfinWrite
import Verif.Props.Effects
import Verif.Props.Exodus
import Verif.Props.Flac3d
import Verif.Props.Gmsh22
import Verif.Props.Gmsh40
import Verif.Props.Gmsh41
import Verif.Props.GmshHead
import Verif.Props.H5m
import Verif.Props.Helpers
import Verif.Props.Hmf
import Verif.Props.Info
import Verif.Props.Mdpa
import Verif.Props.Med
import Verif.Props.Medit
import Verif.Props.MeshInit
import Verif.Props.MeshSets
import Verif.Props.MeshViews
import Verif.Props.Nastran
import Verif.Props.NastranRows
import Verif.Props.Netgen
import Verif.Props.Neuroglancer
import Verif.Props.Obj
import Verif.Props.Off
import Verif.Props.Permas
import Verif.Props.Ply
import Verif.Props.Stl
import Verif.Props.Su2
import Verif.Props.Svg
import Verif.Props.Tecplot
import Verif.Props.Tetgen
import Verif.Props.Types
import Verif.Props.Ugrid
import Verif.Props.Vtk
import Verif.Props.VtkFile
import Verif.Props.VtkFileEx
import Verif.Props.VtkFileWrite
import Verif.Props.VtkLegacy
import Verif.Props.VtkRefuse
import Verif.Props.VtuArray
import Verif.Props.VtuCells
import Verif.Props.VtuFile
import Verif.Props.VtuFileWrite
import Verif.Props.VtuStructure
import Verif.Props.Wkt
import Verif.Props.Xdmf
import Verif.Props.XdmfFile
import Verif.Props.XdmfSeries
import Verif.Props.XdmfSeriesFile
import Verif.Spec.Abaqus
import Verif.Spec.AbaqusInclude
import Verif.Spec.Ansys
import Verif.Spec.Avsucd
import Verif.Spec.Cgns
import Verif.Spec.Cli
import Verif.Spec.Cxml
import Verif.Spec.Dolfin
import Verif.Spec.Exodus
import Verif.Spec.Flac3d
import Verif.Spec.Gmsh22
import Verif.Spec.Gmsh40
import Verif.Spec.Gmsh40W
import Verif.Spec.Gmsh41
import Verif.Spec.Gmsh41W
import Verif.Spec.Grid
import Verif.Spec.H5m
import Verif.Spec.Helpers
import Verif.Spec.Mdpa
import Verif.Spec.Med
import Verif.Spec.Medit
import Verif.Spec.Mesh
import Verif.Spec.Nastran
import Verif.Spec.Permas
import Verif.Spec.Runs
import Verif.Spec.Su2
import Verif.Spec.Svg
import Verif.Spec.Tecplot
import Verif.Spec.Types
import Verif.Spec.Ugrid
import Verif.Spec.Vtk
import Verif.Spec.VtkFile
import Verif.Spec.VtkRefuse
import Verif.Spec.Vtu
import Verif.Spec.VtuFile
import Verif.Spec.VtuFileWrite
import Verif.Spec.Wkt
import Verif.Spec.Xdmf
import Verif.Spec.XdmfFile
import Verif.Spec.XdmfSeriesFile
