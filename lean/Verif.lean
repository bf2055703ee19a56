import Verif.Bits.Props
import Verif.Arrays.Props
import Verif.Classification.Props
import Verif.Components.Props
import Verif.Atmos.Props
import Verif.Ice.Props
import Verif.Attenuation.Props
import Verif.ClassFile.Props
import Verif.Drizzle.Props
import Verif.Search.Props
import Verif.Rebin.Props
import Verif.Interp.Props
import Verif.Times.Props
import Verif.Concat.Props
import Verif.Output.Props
import Verif.Lwc.Props
import Verif.Droplet.Props
import Verif.Insects.Props
import Verif.Falling.Props
import Verif.Freezing.Props
import Verif.Rain.Props
import Verif.Melting.Props
import Verif.Classify.Props
import Verif.Radar.Props
import Verif.RadarError.Props
import Verif.Categorize.Props
import Verif.Cli.Props
import Verif.Disdro.Props
import Verif.Gauge.Props
import Verif.Rpg.Props
import Verif.NcRadar.Props
import Verif.Ceilo.Props
import Verif.ModelEval.Props
import Verif.Source.Props
import Verif.WRadar.Props
import Verif.Epsilon.Props
import Verif.Mira.Props
import Verif.Chilbolton.Props
import Verif.Station.Props
import Verif.Precip.Props
import Verif.Disdrom.Props
import Verif.Disdronator.Props
import Verif.Radiometrics.Props
import Verif.Lidar.Props
import Verif.Mrr.Props
import Verif.RpgDay.Props
import Verif.Save.Props
import Verif.MwrTools.Props
import Verif.Geo.Props
import Verif.Nwp.Props
import Verif.Bundle.Props
import Verif.IceFile.Props
import Verif.DerFile.Props
import Verif.CliRun.Props
import Verif.LwcFile.Props
import Verif.DrizzleFile.Props
import Verif.EpsLidar.Props
import Verif.Plot.Props
import Verif.RadarGrid.Props
import Verif.L3Day.Props
import Verif.HatproDay.Props
import Verif.CeiloDay.Props
import Verif.RadarFile.Props
import Verif.ChilDay.Props
import Verif.FmcwDay.Props
import Verif.Stamps.Props
import Verif.L3Figs.Props
import Verif.PlotAxes.Props
import Verif.Crash.Props
import Verif.CrashSave.Props
import Verif.History.Props
import Verif.CliFiles.Props
import Verif.Stored.Props
import Verif.Handles.Props
import Verif.Figure.Props
import Verif.Chain.Props
import Verif.Calib.Props
import Verif.Profiles.Props
import Verif.Recalibrated.Props
import Verif.Datum.Props
import Verif.Definitions.Props
import Verif.Helpers.Props
import Verif.Folding.Props
import Verif.FileOrder.Props
import Verif.Locality.Props
import Verif.Ranges.Props
import Verif.InPlace.Props
import Verif.Alias.Props
import Verif.FloatGrid.Props
import Verif.FloatBins.Props
import Verif.FloatWindow.Props
import Verif.FloatDate.Props
import Verif.CliPlots.Props
import Verif.FloatMean.Props
import Verif.FloatHeight.Props
import Verif.Axioms
