import Verif.OC.Props
import Verif.Time.InfDateProps
import Verif.Cache.Props
import Verif.Clock.Props
import Verif.Output.Props
import Verif.Release.Props
import Verif.Release.PosProps
import Verif.Container.Props
import Verif.Pair.Props
import Verif.LE.Props
import Verif.Fate.Props
import Verif.Land.Props
import Verif.Cleanup.Props
import Verif.Geom.PolyProps
import Verif.Geom.BoxProps
import Verif.Geom.SetProps
import Verif.Geom.ProjProps
import Verif.Plume.Props
import Verif.Weath.OrderProps
import Verif.TimeUtil.Props
import Verif.Integ.Props
import Verif.RefDict.Props
import Verif.Comp.Props
import Verif.MapStep.Props
import Verif.HalfLife.Props
import Verif.MapStep.TideProps
import Verif.MapQ.Props
import Verif.RectGrid.Props
import Verif.TSeries.AvgProps
import Verif.PointWind.Props
import Verif.WindFile.Props
import Verif.Persist.Props
import Verif.Persist.EqProps
import Verif.Persist.Update
import Verif.NatWeath.Model
import Verif.NatWeath.Spec
import Verif.NatWeath.Props
import Verif.NatWeath.PropsB
import Verif.NatWeath.PropsC
import Verif.SpillSet.Model
import Verif.SpillSet.Props
import Verif.Spread.Model
import Verif.Spread.Spec
import Verif.Spread.Props
import Verif.Spread.PropsB
import Verif.Spread.PropsC
import Verif.Mover.UncProps
import Verif.Mover.MoveProps
import Verif.Mover.WindageProps
import Verif.Mover.WindUncProps
import Verif.Mover.DiffProps
import Verif.Mover.VertProps
import Verif.Mover.IceProps
import Verif.Dag.Model
import Verif.Dag.Spec
import Verif.Dag.Lemmas
import Verif.Dag.Props
import Verif.Dag.Cases
import Verif.Dag.ArrayModel
import Verif.Dag.ArrayProps
import Verif.Dag.InterpModel
import Verif.Dag.InterpProps
import Verif.Cats.Model
import Verif.Cats.Props
import Verif.Place.PolyModel
import Verif.Place.PolyProps
import Verif.Place.GridModel
import Verif.Place.GridProps
import Verif.Convert.Model
import Verif.Convert.Props
import Verif.Convert.BinsModel
import Verif.Convert.BinsProps
import Verif.Oil.DensityModel
import Verif.Oil.DensityProps
import Verif.Oil.ViscModel
import Verif.Oil.ViscProps
import Verif.Oil.ElemModel
import Verif.Oil.ElemProps
import Verif.Oil.ViscElem
import Verif.Waves.Model
import Verif.Waves.Props
import Verif.Water.Model
import Verif.Water.Props
import Verif.NcOut.Model
import Verif.NcOut.Props
import Verif.TGrid.Model
import Verif.TGrid.Lemmas
import Verif.TGrid.Step
import Verif.TGrid.Multi
import Verif.TGrid.Steps
import Verif.TGrid.Props
import Verif.TGrid.MoveModel
import Verif.TGrid.MoveProps
import Verif.Roc.SeriesModel
import Verif.Roc.SeriesProps
import Verif.Roc.BurnModel
import Verif.Roc.BurnProps
import Verif.Roc.BurnRun
import Verif.Roc.BurnStep
import Verif.Roc.RemovalModel
import Verif.Roc.RemovalProps
import Verif.Roc.SkimModel
import Verif.Roc.SkimProps
import Verif.Roc.PlaneModel
import Verif.Roc.PlaneProps
import Verif.Roc.PlaneStep
import Verif.Roc.PlaneClaims
import Verif.Dates.Model
import Verif.Dates.Props
import Verif.Fields.UnitModel
import Verif.Fields.UnitProps
import Verif.Fields.SeriesModel
import Verif.Fields.SeriesProps
import Verif.Fields.MemoModel
import Verif.Fields.MemoProps
import Verif.Shio.DstModel
import Verif.Shio.DstProps
import Verif.Shio.WaveModel
import Verif.Shio.WaveProps
import Verif.Shio.PeaksModel
import Verif.Shio.PeaksProps
import Verif.Shio.OffsetModel
import Verif.Shio.OffsetProps
import Verif.Shio.CycleModel
import Verif.Shio.CycleProps
import Verif.Shio.FileModel
import Verif.Shio.FileProps
import Verif.Run.SwitchModel
import Verif.Run.SwitchProps
import Verif.Run.QueryModel
import Verif.Run.QueryProps
import Verif.Run.EndModel
import Verif.Run.EndProps
import Verif.Output.PostModel
import Verif.Output.PostProps
import Verif.Output.KmzModel
import Verif.Output.KmzProps
import Verif.Upd.ExtractModel
import Verif.Upd.ExtractProps
import Verif.Upd.StepModel
import Verif.Upd.StepProps
import Verif.GridCur.Model
import Verif.GridCur.Props
import Verif.Drift.Model
import Verif.Drift.Props
import Verif.Bna.Model
import Verif.Bna.Props
import Verif.Bna.MapProps
import Verif.Canvas.Model
import Verif.Canvas.Props
import Verif.Hull.Model
import Verif.Hull.Props
import Verif.Appear.Model
import Verif.Appear.Props
import Verif.OutFiles.GeoModel
import Verif.OutFiles.GeoProps
import Verif.OutFiles.BinModel
import Verif.OutFiles.BinProps
import Verif.OutFiles.ShapeModel
import Verif.OutFiles.ShapeProps
import Verif.OutFiles.BudgetModel
import Verif.OutFiles.BudgetProps
import Verif.Geom.PinPModel
import Verif.Geom.PinPProps
import Verif.Geom.ClockwiseModel
import Verif.Geom.ClockwiseProps
import Verif.Run.CheckModel
import Verif.Run.CheckProps
import Verif.OC.SliceModel
import Verif.OC.SliceProps
import Verif.Run.MergeModel
import Verif.Run.MergeProps
import Verif.OC.QuashModel
import Verif.OC.QuashProps
import Verif.Persist.SigModel
import Verif.Persist.SigProps
import Verif.Output.RenderModel
import Verif.Output.RenderProps
import Verif.MapStep.CallsModel
import Verif.MapStep.CallsProps
import Verif.Output.CurJsonModel
import Verif.Output.CurJsonProps
import Verif.Mover.ComponentModel
import Verif.Mover.ComponentProps
import Verif.Output.SpillJsonModel
import Verif.Output.SpillJsonProps
import Verif.Mover.IceGridModel
import Verif.Mover.IceGridProps
import Verif.Upd.LoadModel
import Verif.Upd.LoadProps
import Verif.Run.EnsembleModel
import Verif.Run.EnsembleProps
import Verif.NatWeath.EvapModel
import Verif.NatWeath.EvapProps
import Verif.NatWeath.RatesProps
import Verif.OutFiles.ErmaModel
import Verif.OutFiles.ErmaProps
import Verif.OutFiles.LegendModel
import Verif.OutFiles.LegendProps
import Verif.Fields.EnvFileModel
import Verif.Fields.EnvFileProps
import Verif.Persist.FileObjModel
import Verif.Persist.FileObjProps
import Verif.GridCur.WindRectModel
import Verif.GridCur.WindRectProps
import Verif.Fields.NamesModel
import Verif.Fields.NamesProps
import Verif.Output.IceImageModel
import Verif.Output.IceImageProps
import Verif.TSeries.TideFileModel
import Verif.TSeries.TideFileProps
import Verif.Persist.TypesModel
import Verif.Persist.TypesProps
import Verif.Mover.RiseVelModel
import Verif.Mover.RiseVelProps
import Verif.Release.SavedModel
import Verif.Release.SavedProps
import Verif.Release.NesdisModel
import Verif.Release.NesdisProps
import Verif.Release.FromFileModel
import Verif.Release.FromFileProps
import Verif.TSeries.StationModel
import Verif.TSeries.StationProps
import Verif.GridCur.CycleMoverModel
import Verif.GridCur.CycleMoverProps
import Verif.SpillSet.HelpersModel
import Verif.SpillSet.HelpersProps
import Verif.Roc.BoatModel
import Verif.Roc.BoatProps
import Verif.Roc.SprayModel
import Verif.Roc.SprayProps
import Verif.Roc.PlatformModel
import Verif.Roc.PlatformProps
import Verif.SpillSet.SubstModel
import Verif.SpillSet.SubstProps
import Verif.NatWeath.DissProps
import Verif.TGrid.IslandsModel
import Verif.TGrid.IslandsProps
import Verif.Release.ShareProps
import Verif.Shio.StationCurModel
import Verif.Shio.StationCurProps
import Verif.TGrid.DepthModel
import Verif.TGrid.DepthProps
import Verif.Cleanup.BurnModel
import Verif.Cleanup.BurnProps
import Verif.Persist.SaveLocModel
import Verif.Persist.SaveLocProps
import Verif.Canvas.TagsModel
import Verif.Canvas.TagsProps
import Verif.MapQ.GivenModel
import Verif.MapQ.GivenProps
import Verif.Run.AskModel
import Verif.Run.AskProps
import Verif.RectGrid.NcModel
import Verif.RectGrid.NcProps
import Verif.Bna.RasterModel
import Verif.Bna.RasterProps
import Verif.OutFiles.IceJsonModel
import Verif.OutFiles.IceJsonProps
import Verif.GridCur.ArrowModel
import Verif.GridCur.ArrowProps
import Verif.Mover.SumProps
import Verif.Run.RepeatModel
import Verif.Run.RepeatProps
import Verif.Mover.SteadyModel
import Verif.Mover.SteadyProps
import Verif.Canvas.PropVecModel
import Verif.Canvas.PropVecProps
import Verif.Run.OnOffModel
import Verif.Run.OnOffProps
import Verif.Persist.FetchModel
import Verif.Persist.FetchProps
import Verif.NatWeath.BioModel
import Verif.NatWeath.BioProps
import Verif.Geom.GreatModel
import Verif.Geom.GreatProps
import Verif.Release.BackModel
import Verif.Release.BackProps
import Verif.MapQ.ParamModel
import Verif.MapQ.ParamProps
import Verif.Dag.TopoModel
import Verif.Dag.TopoProps
import Verif.Output.KmzPtModel
import Verif.Output.KmzPtProps
import Verif.Canvas.CmapModel
import Verif.Canvas.CmapProps
import Verif.Output.LandImgModel
import Verif.Output.LandImgProps
import Verif.Output.StampModel
import Verif.Output.StampProps
import Verif.Fields.SrcModel
import Verif.Fields.SrcProps
import Verif.GridCur.OpenModel
import Verif.GridCur.OpenProps
import Verif.GridCur.ResolveModel
import Verif.GridCur.ResolveProps
import Verif.TGrid.NcTimesModel
import Verif.TGrid.NcTimesProps
import Verif.TGrid.CurvTriModel
import Verif.TGrid.CurvTriProps
import Verif.TGrid.VelsModel
import Verif.TGrid.VelsProps
import Verif.OutFiles.NcFileModel
import Verif.OutFiles.NcFileProps
import Verif.Release.PolySetModel
import Verif.Release.PolySetProps
import Verif.Persist.DeserModel
import Verif.Persist.DeserProps
import Verif.Shio.HarmModel
import Verif.Shio.HarmProps
import Verif.Shio.RotaryModel
import Verif.Shio.RotaryProps
import Verif.Shio.YearModel
import Verif.Shio.YearProps
import Verif.NatWeath.LibDispModel
import Verif.NatWeath.LibDispProps
import Verif.Mover.SameProps
import Verif.Mover.LibUncModel
import Verif.Mover.LibUncProps
import Verif.Persist.CopyModel
import Verif.Persist.CopyProps
import Verif.Run.AgeModel
import Verif.Run.AgeProps
import Verif.OutFiles.BinFileModel
import Verif.OutFiles.BinFileProps
import Verif.Run.SettingsModel
import Verif.Run.SettingsProps
import Verif.Run.ShiftProps
import Verif.Run.ExtendProps
import Verif.MapStep.EastProps
import Verif.MapStep.CourseProps
import Verif.TSeries.AvgObjModel
import Verif.TSeries.AvgObjProps
import Verif.MapStep.SpillsProps
import Verif.Mover.ZeroUncProps
import Verif.Shio.FloodModel
import Verif.Shio.FloodProps
import Verif.Shio.EndsModel
import Verif.Shio.EndsProps
import Verif.Mover.FinerProps
import Verif.NatWeath.PartsProps
import Verif.Spread.PartsProps
import Verif.Land.TurnProps
import Verif.Land.LayerTurnProps
import Verif.Cleanup.PartsProps
import Verif.Mover.MirrorProps
import Verif.Waves.TurbModel
import Verif.Waves.TurbProps
import Verif.Roc.ThickModel
import Verif.Roc.ThickProps
import Verif.Mover.AddProps
import Verif.Mover.PaceProps
import Verif.NatWeath.ShareProps
import Verif.OutFiles.LabelModel
import Verif.OutFiles.LabelProps
import Verif.TimeUtil.ZoneModel
import Verif.TimeUtil.ZoneProps
import Verif.Spread.StateModel
import Verif.Spread.StateProps
import Verif.TGrid.WindCurvModel
import Verif.TGrid.WindCurvProps
