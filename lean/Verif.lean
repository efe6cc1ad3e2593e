import Verif.Num
import Verif.Interp1d
import Verif.Interp1dSpec
import Verif.Interp1dLemmas
import Verif.Interp1dLemmas2
import Verif.Interp1dLemmas3
import Verif.Interp1dProps
import Verif.Interp1dFormulaProps
import Verif.Cellave
import Verif.CellaveLemmas
import Verif.CellaveProps
import Verif.Interp1dSchedProps
import Verif.Str
import Verif.Misc
import Verif.MiscProps
import Verif.MiscAxisProps
import Verif.MiscMergeProps
import Verif.MiscFilterProps
import Verif.Options
import Verif.OptionsProps
import Verif.CfCache
import Verif.CfCacheFileProps
import Verif.Cfgm
import Verif.CfgmProps
import Verif.CfgmPatchProps
import Verif.SGLoc
import Verif.SGLocLemmas
import Verif.SGLocProps
import Verif.SGLocFormatProps
import Verif.SGLocPatchProps
import Verif.Sigma
import Verif.SigmaProps
import Verif.SigmaFormulaProps
import Verif.SigmaTerms
import Verif.SigmaTermsProps
import Verif.Grid
import Verif.GridProps
import Verif.GridXrProps
import Verif.Coords
import Verif.CoordsLemmas
import Verif.CoordsProps
import Verif.FlushLemmas
import Verif.FlushAlign
import Verif.FlushProps
import Verif.Regrid
import Verif.RegridProps
import Verif.RegridEndProps
import Verif.Filter
import Verif.FilterLemmas
import Verif.FilterProps
import Verif.FilterWindowProps
import Verif.FilterKernelProps
import Verif.ErodeProps
import Verif.ErodeUntilProps
import Verif.ErodeDefaultProps
import Verif.Interp2d
import Verif.HaversineProps
import Verif.ClosestProps
import Verif.CellLocProps
import Verif.GridLocProps
import Verif.CfMatch
import Verif.CfMatchProps
import Verif.CfInherit
import Verif.CfInheritLemmas
import Verif.CfInheritProps
import Verif.CfReloadProps
import Verif.CfDims
import Verif.CfDimsProps
import Verif.CoordGetProps
import Verif.CfFormat
import Verif.CfFormatProps
import Verif.CfFormatDsProps
import Verif.CfFormatMoreProps
import Verif.Similar
import Verif.SimilarProps
import Verif.ArgParse
import Verif.ArgParseProps
import Verif.Color
import Verif.ColorProps
import Verif.Validators
import Verif.ValidatorsProps
import Verif.FilterIso
import Verif.FilterIsoProps
import Verif.CfLoad
import Verif.CfLoadProps
import Verif.CfLoadInheritProps
import Verif.CfAccess
import Verif.CfAccessProps
import Verif.CfgmTools
import Verif.CfgmToolsProps
import Verif.Accessor
import Verif.AccessorProps
import Verif.CfFormatTotalProps
import Verif.SigmaLimitProps
import Verif.MergeAssocProps
import Verif.ExactProps
import Verif.Linear4d
import Verif.Linear4dProps
import Verif.Validators2
import Verif.Validators2Props
import Verif.CfgHelp
import Verif.CfgHelpProps
import Verif.CfgLoad
import Verif.CfgLoadProps
import Verif.CfgInit
import Verif.CfgInitProps
import Verif.CfgRst
import Verif.CfgRstProps
import Verif.Info
import Verif.InfoProps
import Verif.InfoDocProps
import Verif.Interp1dUnitsProps
import Verif.RegridUnitsProps
import Verif.CellaveUnitsProps
import Verif.FilterUnitsProps
import Verif.ErodeTurnProps
import Verif.XyDims
import Verif.XyDimsProps
import Verif.CfgMany
import Verif.CfgManyProps
import Verif.Wrappers
import Verif.WrappersProps
import Verif.CfBuiltinRaw
import Verif.CfBuiltin
import Verif.CfBuiltinCats
import Verif.CfBuiltinProps
import Verif.CfBuiltinAxisProps
import Verif.CfBuiltinRoundProps
import Verif.CfBuiltinDimsProps
import Verif.CfBuiltinGetProps
import Verif.RegridNames
import Verif.RegridNamesProps
import Verif.TightProps
import Verif.RegridTop
import Verif.RegridTopProps
import Verif.CfBuiltinSearchProps
import Verif.Interp1dInt
import Verif.Interp1dIntProps
import Verif.Interp1dDirProps
import Verif.RegridAcceptProps
import Verif.MergeListsProps
import Verif.MergeUniqProps
import Verif.LonOriginProps
import Verif.OrderProps
import Verif.OutputPointProps
import Verif.FilterTurnProps
import Verif.RegridPickProps
import Verif.EdgesUnitsProps
import Verif.SigmaUnitsProps
import Verif.CellaveStepsProps
import Verif.GridOrientProps
import Verif.MergeArgs
import Verif.MergeArgsProps
import Verif.SGName
import Verif.SGNameProps
import Verif.CfExplicit
import Verif.CfExplicitProps
import Verif.SigmaDecode
import Verif.SigmaDecodeProps
import Verif.CfItems
import Verif.CfItemsProps
import Verif.FilterInt
import Verif.FilterIntProps
import Verif.FilterSizeProps
import Verif.InterpStepsProps
import Verif.CfgHelpMoreProps
import Verif.Rounding
import Verif.RoundingCalc
import Verif.Interp1dF
import Verif.RoundingNear
import Verif.Interp1dFProps
import Verif.Interp1dFCubicProps
import Verif.FilterApprox
import Verif.FilterApproxProps
import Verif.CfgLoadFilterProps
import Verif.RoundingMono
import Verif.GridF
import Verif.GridFProps
import Verif.Witness
import Verif.CellaveF
import Verif.CellaveFProps
import Verif.SigmaF
import Verif.SigmaFProps
import Verif.ShortHelp
import Verif.ShortHelpProps
import Verif.RegridF
import Verif.RegridFLemmas
import Verif.RegridFProps
import Verif.SigmaArr
import Verif.SigmaArrProps
import Verif.SigmaEnd
import Verif.SigmaEndProps
import Verif.CfConc
import Verif.CfConcProps
import Verif.OptThreads
import Verif.OptThreadsProps
import Verif.ResetHistProps
import Verif.CfThreads
import Verif.CfThreadsProps
import Verif.GridF2
import Verif.GridF2Props
import Verif.Interp1dSafe
import Verif.Interp1dSafeProps
import Verif.Interp1dGapProps
import Verif.Interp2dSafeProps
import Verif.FilterSepProps
import Verif.MoreDataProps
import Verif.FilterPartProps
import Verif.ErodeDistProps
import Verif.HavFProps
import Verif.CellLocFProps
import Verif.StepsProps
import Verif.ErrorProps
import Verif.SearchMoreProps
import Verif.OptStepsProps
import Verif.ShapiroProps
import Verif.SymKernelProps
import Verif.FilterTotalProps
import Verif.ErodeStepsProps
import Verif.ClosestNearProps
import Verif.PatchStepsProps
import Verif.FilterCallsProps
import Verif.SigmaBetweenProps
import Verif.SGLocHistProps
import Verif.SGMergeHistProps
