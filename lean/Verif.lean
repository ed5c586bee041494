import Verif.Act
import Verif.Air.Model
import Verif.Air.Props
import Verif.Air.TableProps
import Verif.Building.LoadProps
import Verif.Building.ModelModel
import Verif.Building.ModelProps
import Verif.Building.OrientationModel
import Verif.Building.OrientationProps
import Verif.Building.SaveModel
import Verif.Building.SaveProps
import Verif.Building.ScannerModel
import Verif.Building.ScannerProps
import Verif.Building.StateModel
import Verif.Building.StateProps
import Verif.Calendar.AddLemmas
import Verif.Calendar.Lemmas
import Verif.Calendar.Model
import Verif.Calendar.PeriodLemmas
import Verif.Calendar.Props
import Verif.Calendar.ShowModel
import Verif.Calendar.ShowProps
import Verif.Calendar.Spec
import Verif.Float.Ext
import Verif.Float.F64Model
import Verif.Float.F64Props
import Verif.Float.Round
import Verif.Geometry.ApproxModel
import Verif.Geometry.ApproxProps
import Verif.Geometry.BBoxModel
import Verif.Geometry.BBoxProps
import Verif.Geometry.BiteProps
import Verif.Geometry.CylinderProps
import Verif.Geometry.DiskProps
import Verif.Geometry.EditModel
import Verif.Geometry.EditProps
import Verif.Geometry.ErrorModel
import Verif.Geometry.ErrorProps
import Verif.Geometry.EvenOddProps
import Verif.Geometry.Exact
import Verif.Geometry.ExactBite
import Verif.Geometry.ExactPolygon
import Verif.Geometry.ExactSplit
import Verif.Geometry.ExactTriangulation
import Verif.Geometry.HitModel
import Verif.Geometry.HitProps
import Verif.Geometry.InsideProps
import Verif.Geometry.LoopModel
import Verif.Geometry.LoopProps
import Verif.Geometry.MeshProps
import Verif.Geometry.MeshStartProps
import Verif.Geometry.PolygonModel
import Verif.Geometry.PolygonProps
import Verif.Geometry.QuadraticModel
import Verif.Geometry.QuadraticProps
import Verif.Geometry.QuickModel
import Verif.Geometry.QuickProps
import Verif.Geometry.RefineProps
import Verif.Geometry.SameProps
import Verif.Geometry.SaveModel
import Verif.Geometry.SaveProps
import Verif.Geometry.SegmentModel
import Verif.Geometry.SegmentProps
import Verif.Geometry.ShapeModel
import Verif.Geometry.ShapeProps
import Verif.Geometry.SphereProps
import Verif.Geometry.SplitModel
import Verif.Geometry.SplitProps
import Verif.Geometry.TangentModel
import Verif.Geometry.TangentProps
import Verif.Geometry.TransformModel
import Verif.Geometry.TransformProps
import Verif.Geometry.TriangleModel
import Verif.Geometry.TriangleProps
import Verif.Geometry.TriangulationModel
import Verif.Geometry.TriangulationProps
import Verif.Geometry.VecModel
import Verif.Geometry.VecProps
import Verif.Heat.AbsorptionModel
import Verif.Heat.AbsorptionProps
import Verif.Heat.BorderProps
import Verif.Heat.BuildingStepProps
import Verif.Heat.ChunkModel
import Verif.Heat.ChunkProps
import Verif.Heat.ChunksProps
import Verif.Heat.ConvectionModel
import Verif.Heat.ConvectionProps
import Verif.Heat.DiscretizationModel
import Verif.Heat.DiscretizationProps
import Verif.Heat.GasDataProps
import Verif.Heat.GasModel
import Verif.Heat.GasProps
import Verif.Heat.GlazingModel
import Verif.Heat.GlazingProps
import Verif.Heat.HeaterProps
import Verif.Heat.HouseProps
import Verif.Heat.MarchProps
import Verif.Heat.NomassModel
import Verif.Heat.NomassProps
import Verif.Heat.OrderProps
import Verif.Heat.StabilityModel
import Verif.Heat.StabilityProps
import Verif.Heat.SurfaceModel
import Verif.Heat.SurfaceProps
import Verif.Heat.UnplacedProps
import Verif.Heat.WholeModel
import Verif.Heat.WholeProps
import Verif.Heat.WholeRunProps
import Verif.Heat.WholeWiredProps
import Verif.Heat.WindModel
import Verif.Heat.WindProps
import Verif.Heat.WithinProps
import Verif.Heat.ZoneModel
import Verif.Heat.ZoneProps
import Verif.Light.IncidentModel
import Verif.Light.IncidentProps
import Verif.Light.OpticalModel
import Verif.Light.OpticalProps
import Verif.Light.SolarMarchModel
import Verif.Light.SolarMarchProps
import Verif.Matrix.GaussChain
import Verif.Matrix.GaussDominant
import Verif.Matrix.GaussLemmas
import Verif.Matrix.GaussModel
import Verif.Matrix.GaussProps
import Verif.Matrix.Lemmas
import Verif.Matrix.Model
import Verif.Matrix.NDiagModel
import Verif.Matrix.NDiagProps
import Verif.Matrix.Props
import Verif.Matrix.SeidelConvProps
import Verif.Matrix.SeidelModel
import Verif.Matrix.SeidelProps
import Verif.Matrix.Spec
import Verif.Polynomial.Model
import Verif.Polynomial.Props
import Verif.Prelude
import Verif.Render.BvhFaults
import Verif.Render.BvhModel
import Verif.Render.BvhProps
import Verif.Render.BvhTraceProps
import Verif.Render.CameraModel
import Verif.Render.CameraProps
import Verif.Render.ColourmapModel
import Verif.Render.ColourmapProps
import Verif.Render.DaylightModel
import Verif.Render.DaylightProps
import Verif.Render.FalsecolourModel
import Verif.Render.FalsecolourProps
import Verif.Render.FrameProps
import Verif.Render.FromModelModel
import Verif.Render.FromModelProps
import Verif.Render.GlossyProps
import Verif.Render.ImageFileProps
import Verif.Render.ImageModel
import Verif.Render.ImageProps
import Verif.Render.LifeModel
import Verif.Render.LifeProps
import Verif.Render.LightModel
import Verif.Render.LightProps
import Verif.Render.MaterialModel
import Verif.Render.MatrixFileModel
import Verif.Render.MatrixFileProps
import Verif.Render.MeshModel
import Verif.Render.MeshProps
import Verif.Render.PathProps
import Verif.Render.RadianceModel
import Verif.Render.RadianceProps
import Verif.Render.ReflectanceModel
import Verif.Render.ReflectanceProps
import Verif.Render.SamplerModel
import Verif.Render.SamplerProps
import Verif.Render.ShadingModel
import Verif.Render.ShadingProps
import Verif.Render.SkySceneModel
import Verif.Render.SkySceneProps
import Verif.Render.SpecularProps
import Verif.Render.StageModel
import Verif.Render.StageProps
import Verif.Render.ToolsModel
import Verif.Render.ToolsProps
import Verif.Render.TracerModel
import Verif.Render.TracerProps
import Verif.Sim.CommandModel
import Verif.Sim.CommandProps
import Verif.Sim.ControlModel
import Verif.Sim.ControlProps
import Verif.Sim.CsvModel
import Verif.Sim.CsvProps
import Verif.Sim.NamesModel
import Verif.Sim.NamesProps
import Verif.Sim.PhysicsModel
import Verif.Sim.PhysicsProps
import Verif.Sim.PhysicsRunProps
import Verif.Sim.RunModel
import Verif.Sim.RunProps
import Verif.Sim.ScriptModel
import Verif.Sim.ScriptProps
import Verif.Sim.WiringModel
import Verif.Sim.WiringProps
import Verif.Utils.ProgressModel
import Verif.Utils.ProgressProps
import Verif.Weather.DiffuseProps
import Verif.Weather.EpwModel
import Verif.Weather.EpwProps
import Verif.Weather.LineModel
import Verif.Weather.LineProps
import Verif.Weather.MergeModel
import Verif.Weather.MergeProps
import Verif.Weather.OrbitProps
import Verif.Weather.PerezModel
import Verif.Weather.PerezProps
import Verif.Weather.PerezSkyModel
import Verif.Weather.PerezSkyProps
import Verif.Weather.RadiationModel
import Verif.Weather.RadiationProps
import Verif.Weather.ReinhartModel
import Verif.Weather.ReinhartProps
import Verif.Weather.SkyVecProps
import Verif.Weather.SunDataProps
import Verif.Weather.SunModel
import Verif.Weather.SunProps
