import Verif.Props.Doodson
import Verif.Props.Constituents
import Verif.Lemmas.Num
import Verif.Props.Angles
import Verif.Props.Rotations
import Verif.Props.Ellipse
import Verif.Props.Legendre
import Verif.Props.Bilinear
import Verif.Props.Extrapolate
import Verif.Model.Grid
import Verif.Lemmas.Grid
import Verif.Props.GridShift
import Verif.Props.GridCrop
import Verif.Props.GridLon
import Verif.Props.CGrid
import Verif.Model.OTIS
import Verif.Lemmas.Bytes
import Verif.Props.OTISFields
import Verif.Props.OTISGrid
import Verif.Model.Atlas
import Verif.Spec.Atlas
import Verif.Lemmas.Atlas
import Verif.Props.Atlas
import Verif.Model.Predict
import Verif.Spec.Tide
import Verif.Props.Predict
import Verif.Props.Solve
import Verif.Model.Infer
import Verif.Props.Infer
import Verif.Model.Nodal
import Verif.Model.Coef
import Verif.Model.Minor
import Verif.Spec.Compound
import Verif.Spec.Modulation
import Verif.Lemmas.Nodal
import Verif.Props.Nodal
import Verif.Props.Minor
import Verif.Props.Coef
import Verif.Model.Astro
import Verif.Props.Arguments
import Verif.Model.Equilibrium
import Verif.Spec.CartwrightEdden
import Verif.Props.Equilibrium
import Verif.Model.Parameters
import Verif.Props.Parameters
import Verif.Model.Spatial
import Verif.Props.Spatial
import Verif.Props.Ellipsoid
import Verif.Props.Convert
import Verif.Props.Scale
import Verif.Model.Geodetic
import Verif.Lemmas.Zhu
import Verif.Props.Geodetic
import Verif.Props.GeodeticIter
import Verif.Props.GeodeticMoritz
import Verif.Model.Datum
import Verif.Spec.Ellipsoids
import Verif.Props.Datum
import Verif.Model.SolidEarth
import Verif.Spec.Displacement
import Verif.Props.SolidEarth
import Verif.Props.SolidCorrections
import Verif.Props.SolidRequests
import Verif.Model.PoleTide
import Verif.Spec.PoleTide
import Verif.Props.PoleTide
import Verif.Model.Compute
import Verif.Spec.Harmonic
import Verif.Lemmas.Case
import Verif.Props.Compute
import Verif.Props.Requests
import Verif.Model.TideModel
import Verif.Props.TideModel
import Verif.Model.Parse
import Verif.Props.Parse
import Verif.Model.Database
import Verif.Model.Definition
import Verif.Props.Database
import Verif.Props.Definition
import Verif.Model.Utilities
import Verif.Spec.Roman
import Verif.Props.Utilities
import Verif.Model.Ascii
import Verif.Spec.Ascii
import Verif.Props.Ascii
import Verif.Model.NetCDF
import Verif.Props.NetCDF
import Verif.Model.Love
import Verif.Props.Love
import Verif.Props.Admittance
import Verif.Spec.NodalRange
import Verif.Lemmas.NodalFes
import Verif.Props.NodalRange
import Verif.Model.Session
import Verif.Props.Session
import Verif.Model.AtlasFile
import Verif.Props.AtlasFile
import Verif.Model.IERS
import Verif.Spec.IERS
import Verif.Props.IERS
import Verif.Model.Spline
import Verif.Model.Extract
import Verif.Spec.Chart
import Verif.Lemmas.Chart
import Verif.Lemmas.Extract
import Verif.Props.Extract
import Verif.Props.ExtractCrop
import Verif.Model.ExtractOTIS
import Verif.Spec.Staggered
import Verif.Lemmas.Staggered
import Verif.Props.ExtractOTIS
import Verif.Props.ReadOTIS
import Verif.Model.ExtractATLAS
import Verif.Lemmas.ExtractATLAS
import Verif.Props.ExtractATLAS
import Verif.Spec.Forecast
import Verif.Model.Pipeline
import Verif.Props.Pipeline
import Verif.Spec.Ephemerides
import Verif.Spec.Celestial
import Verif.Model.Ephemerides
import Verif.Model.NutationTables
import Verif.Model.Celestial
import Verif.Props.Ephemerides
import Verif.Props.Celestial
import Verif.Spec.Domain
import Verif.Model.Masks
import Verif.Props.Masks
import Verif.Spec.Numbers
import Verif.Model.Numbers
import Verif.Props.Numbers
import Verif.Spec.AtlasGrid
import Verif.Model.AtlasGrid
import Verif.Props.AtlasGrid
import Verif.Spec.Combine
import Verif.Model.Combine
import Verif.Lemmas.Combine
import Verif.Props.Combine
import Verif.Model.Compact
import Verif.Props.Compact
import Verif.Model.TMD3
import Verif.Spec.TMD3
import Verif.Props.TMD3
import Verif.Model.Polar
import Verif.Spec.Polar
import Verif.Props.Polar
import Verif.Model.Listing
import Verif.Spec.Listing
import Verif.Props.Listing
import Verif.Model.Csv
import Verif.Props.Csv
import Verif.Model.Store
import Verif.Spec.Store
import Verif.Props.Store
import Verif.Model.Geotiff
import Verif.Spec.Geotiff
import Verif.Props.Geotiff
import Verif.Model.FileNames
import Verif.Props.FileNames
import Verif.Model.Regional
import Verif.Props.Regional
import Verif.Model.RegionalCompact
import Verif.Props.RegionalCompact
import Verif.Model.Crs
import Verif.Props.Crs
import Verif.Model.Program
import Verif.Props.Program
import Verif.Model.ProgramFiles
import Verif.Props.ProgramFiles
import Verif.Spec.Angle
import Verif.Lemmas.Angle
import Verif.Model.Longitudes
import Verif.Props.Longitudes
import Verif.Spec.Minor
import Verif.Model.MinorArguments
import Verif.Lemmas.NodalContinuous
import Verif.Props.MinorArguments
import Verif.Props.Continuous
import Verif.Props.Mirror
import Verif.Props.ExtractFill
import Verif.Props.Transfer
import Verif.Props.Locator
import Verif.Props.Potential
import Verif.Spec.Ocean
import Verif.Props.Ocean
import Verif.Lemmas.Separate
import Verif.Lemmas.NodalRate
import Verif.Lemmas.SeparateNodal
import Verif.Props.Separate
import Verif.Spec.Sampling
import Verif.Model.Modules
import Verif.Spec.Renamed
import Verif.Props.Modules
import Verif.Props.Size
import Verif.Props.SizeTide
import Verif.Props.Region
import Verif.Props.RegionATLAS
import Verif.Props.RegionCrop
import Verif.Props.RegionATLASCrop
import Verif.Model.ProgramCurrents
import Verif.Props.ProgramCurrents
import Verif.Props.OtisCrop
import Verif.Model.Extrapolated
import Verif.Spec.Nearest
import Verif.Props.Extrapolated
import Verif.Props.ExtrapolatedSea
import Verif.Props.ExtrapolatedLimits
import Verif.Model.PipelineOptions
import Verif.Props.PipelineOptions
import Verif.Props.PipelineRegion
import Verif.Model.Rounded
import Verif.Spec.Arithmetic
import Verif.Lemmas.Rounded
import Verif.Lemmas.RoundedTide
import Verif.Lemmas.RoundedArgs
import Verif.Lemmas.RoundedPhase
import Verif.Props.Rounded
import Verif.Props.RoundedBinary
import Verif.Props.ExtrapolatedBeyond
import Verif.Props.ExtrapolatedStored
import Verif.Props.RoundedGrid
import Verif.Model.Parquet
import Verif.Props.Parquet
import Verif.Model.ProgramPole
import Verif.Props.ProgramPole
import Verif.Model.Providers
import Verif.Spec.Providers
import Verif.Props.Providers
import Verif.Model.Arctic
import Verif.Spec.Arctic
import Verif.Props.Arctic
import Verif.Model.Names
import Verif.Spec.Names
import Verif.Props.Names
import Verif.Model.UnixTime
import Verif.Spec.UnixTime
import Verif.Props.UnixTime
import Verif.Model.Verify
import Verif.Spec.Verify
import Verif.Props.Verify
import Verif.Model.Kernel
import Verif.Spec.Kernel
import Verif.Props.Kernel
import Verif.Props.StoredRegion
import Verif.Props.Outputs
import Verif.Model.Marker
import Verif.Props.Marker
import Verif.Model.Login
import Verif.Props.Login
import Verif.Model.Currents
import Verif.Props.Currents
import Verif.Model.NodeField
import Verif.Props.NodeField
import Verif.Props.CurrentsFiles
import Verif.Props.CurrentsRegion
import Verif.Model.FetchLog
import Verif.Props.FetchLog
import Verif.Model.Wrappers
import Verif.Props.Wrappers
import Verif.Model.Distance
import Verif.Props.Distance
import Verif.Model.ConstituentsItems
import Verif.Props.ConstituentsItems
import Verif.Spec.Phases
import Verif.Model.ArgumentsTable
import Verif.Props.ArgumentsTable
