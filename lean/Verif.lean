import Verif.Time.Calendar
import Verif.Time.Julian
import Verif.Time.Decimal
import Verif.Time.Adjust
import Verif.Time.Reduce
import Verif.Time.Parse
import Verif.Dates.Props
import Verif.Harmonics.Flatten
import Verif.Harmonics.Arith
import Verif.Harmonics.Series
import Verif.Harmonics.Cache
import Verif.Input.Read
import Verif.Input.Replace
import Verif.Spatial.Mask
import Verif.Spatial.Stats
import Verif.Spatial.Scaling
import Verif.Spatial.Alias
import Verif.Geocenter.Props
import Verif.Legendre.Props
import Verif.Synthesis.Clenshaw
import Verif.Synthesis.Summation
import Verif.Synthesis.Gauss
import Verif.Units.Props
import Verif.Legendre.Single
import Verif.Analysis.Points
import Verif.Loads.Props
import Verif.Destripe.Props
import Verif.TimeSeries.Piecewise
import Verif.TimeSeries.Smooth
import Verif.TimeSeries.SavGol
import Verif.TimeSeries.Lomb
import Verif.SeaLevel.Props
import Verif.Mascons.Props
import Verif.Tools.Props
import Verif.LoveNumbers.Props
import Verif.Utilities.Paths
import Verif.Utilities.Files
import Verif.Ocean.Props
import Verif.Weekly.Props
import Verif.Legendre.Orthogonal
import Verif.Fourier.Props
import Verif.Fourier.GradProps
import Verif.Fourier.HarmProps
import Verif.Legendre.Gaussian
import Verif.Synthesis.GaussExact
import Verif.Kernel.Props
import Verif.Synthesis.Currents
import Verif.DegreeOne.Props
import Verif.DegreeOne.Examples
import Verif.MasconFit.Props
import Verif.MasconFit.Examples
import Verif.SLR.Text
import Verif.SLR.Model
import Verif.SLR.Props
import Verif.SLR.Props2
import Verif.SLR.Props3
import Verif.SLR.Props4
import Verif.SLR.Examples
import Verif.GIA.Props
import Verif.GIA.Props2
import Verif.DegreeOne.Fingerprint
import Verif.GeoRead.Props3
import Verif.Sync.Props
import Verif.Sync.Props2
import Verif.Names.Regex
import Verif.Names.Search
import Verif.Names.Model
import Verif.Names.Props
import Verif.Names.Parse
import Verif.Names.Ver
import Verif.Names.Index
import Verif.Names.Examples
import Verif.SpatialIO.Format
import Verif.SpatialIO.Model
import Verif.SpatialIO.Lines
import Verif.SpatialIO.Props
import Verif.SpatialIO.Ascii
import Verif.SpatialIO.Dataset
import Verif.SpatialIO.DataProps
import Verif.SpatialIO.Data
import Verif.HarmIO.Format
import Verif.HarmIO.Model
import Verif.HarmIO.Lines
import Verif.HarmIO.Ascii
import Verif.HarmIO.Dataset
import Verif.HarmIO.DataProps
import Verif.HarmIO.Data
import Verif.HarmIO.Index
import Verif.HarmIO.IndexProps
import Verif.HarmIO.IndexFiles
import Verif.Dealias.Model
import Verif.Dealias.Days
import Verif.Dealias.Archive
import Verif.Dealias.Blocks
import Verif.Dealias.Mean
import Verif.Dealias.Program
import Verif.Dealias.Series
import Verif.Dealias.Main
import Verif.Gfc.Model
import Verif.Gfc.Match
import Verif.Gfc.Props
import Verif.Share.Model
import Verif.Share.Spec
import Verif.Share.Lemmas
import Verif.Share.Props
import Verif.Maps.Model
import Verif.Maps.Spec
import Verif.Maps.Lemmas
import Verif.Maps.Props
import Verif.LoveText.Model
import Verif.LoveText.Spec
import Verif.LoveText.Lemmas
import Verif.LoveText.Props
import Verif.GraceText.Model
import Verif.GraceText.Spec
import Verif.GraceText.Lemmas
import Verif.GraceText.Props
import Verif.GraceText.Writer
import Verif.GraceText.Props2
import Verif.GraceText.Props3
import Verif.GraceText.Examples
import Verif.SpatialError.Model
import Verif.SpatialError.Spec
import Verif.SpatialError.Lemmas
import Verif.SpatialError.Props
import Verif.SpatialError.Props2
import Verif.SpatialError.Props3
import Verif.MeanField.Model
import Verif.MeanField.Spec
import Verif.MeanField.Props
import Verif.MeanField.Text
import Verif.RegMaps.Model
import Verif.RegMaps.Spec
import Verif.RegMaps.Lemmas
import Verif.RegMaps.Fit
import Verif.RegMaps.Measures
import Verif.RegMaps.Props
import Verif.RegMaps.Waves
import Verif.RegMaps.Props2
import Verif.RegMaps.Break
import Verif.RegMaps.Examples
import Verif.ScaleMaps.Model
import Verif.ScaleMaps.Spec
import Verif.ScaleMaps.Cells
import Verif.ScaleMaps.Props
import Verif.ScaleMaps.Props2
import Verif.Convert.Model
import Verif.Convert.Spec
import Verif.Convert.Lemmas
import Verif.Convert.Props
import Verif.Convert.Props2
import Verif.Convert.Props3
import Verif.Uplift.Model
import Verif.Uplift.Spec
import Verif.Uplift.Names
import Verif.Uplift.Fields
import Verif.Uplift.Field2
import Verif.Uplift.Props
import Verif.Uplift.Props2
import Verif.Uplift.Examples
import Verif.Fingerprint.Model
import Verif.Fingerprint.Spec
import Verif.Fingerprint.Props
import Verif.Fingerprint.Files
import Verif.Extrap.Model
import Verif.Extrap.Spec
import Verif.Extrap.Props
import Verif.Extrap.Deg1
import Verif.MonthsIndex.Model
import Verif.MonthsIndex.Spec
import Verif.MonthsIndex.Text
import Verif.MonthsIndex.Read
import Verif.MonthsIndex.Lines
import Verif.MonthsIndex.Props
import Verif.MonthsIndex.Run
import Verif.MonthsIndex.Examples
import Verif.Login.Model
import Verif.Login.Props
import Verif.Containers.Model
import Verif.Containers.Props
import Verif.MonteCarlo.Model
import Verif.MonteCarlo.Props
import Verif.Cmr.Model
import Verif.Cmr.Props
import Verif.Raster.Model
import Verif.Raster.Props
import Verif.Summary.Model
import Verif.Summary.Spec
import Verif.Summary.Lemmas
import Verif.Summary.Props
import Verif.Summary.Props2
import Verif.Summary.Props3
import Verif.QuickPlot.Model
import Verif.QuickPlot.Spec
import Verif.QuickPlot.Props
import Verif.QuickPlot.Props2
import Verif.QuickPlot.Props3
import Verif.Fetch.Model
import Verif.Fetch.Stamps
import Verif.Fetch.Spec
import Verif.Fetch.Acts
import Verif.Fetch.Props
import Verif.Fetch.Span
import Verif.Fetch.More
import Verif.Fetch.Lri
import Verif.GeoRead.Strict
import Verif.Sync.Strict
import Verif.Names.Strict
import Verif.SpatialIO.Strict
import Verif.HarmIO.Strict
import Verif.Dealias.Strict
import Verif.Gfc.Strict
import Verif.Share.Strict
import Verif.Maps.Strict
import Verif.MeanField.Strict
import Verif.RegMaps.Strict
import Verif.Uplift.Strict
import Verif.Fingerprint.Strict
import Verif.Extrap.Strict
import Verif.Login.Strict
import Verif.Cmr.Strict
import Verif.FileNames.Model
import Verif.FileNames.Spec
import Verif.FileNames.Props
import Verif.GeoFigures.Model
import Verif.GeoFigures.Spec
import Verif.GeoFigures.Props
import Verif.Geocenter.Attrs
import Verif.Geocenter.AttrsProps
import Verif.JobLog.Model
import Verif.JobLog.Props
import Verif.PlotGrid.Model
import Verif.PlotGrid.Spec
import Verif.PlotGrid.Props
import Verif.PlotGrid.Bilinear
import Verif.PlotGrid.More
import Verif.PlotGrid.Panels
import Verif.Colours.Model
import Verif.Colours.Spec
import Verif.Colours.Props
import Verif.Colours.Maps
import Verif.Colours.Cpt
import Verif.SpatialIndex.Model
import Verif.SpatialIndex.Props
import Verif.SpatialIndex.Files
import Verif.Describe.Model
import Verif.Describe.Props
import Verif.Legendre.DispatchModel
import Verif.Legendre.Dispatch
import Verif.SeaLevel.ClenshawModel
import Verif.SeaLevel.Clenshaw
import Verif.Graz.Model
import Verif.Graz.Lemmas
import Verif.Graz.Props
import Verif.Graz.Index
import Verif.GeoFile.Yaml
import Verif.GeoFile.Model
import Verif.GeoFile.Lemmas
import Verif.GeoFile.Header
import Verif.GeoFile.Doc
import Verif.GeoFile.Items
import Verif.GeoFile.Hash
import Verif.GeoFile.Data
import Verif.GeoFile.Props
import Verif.Resolution.Model
import Verif.Resolution.Props
import Verif.GeoFigures.Strict
import Verif.Geocenter.AttrsStrict
import Verif.GeoFile.MonteModel
import Verif.GeoFile.MonteDoc
import Verif.GeoFile.MonteProps
import Verif.Drive.Model
import Verif.Drive.Props
import Verif.Notebook.Model
import Verif.Notebook.Props
import Verif.Upload.Model
import Verif.Upload.Props
