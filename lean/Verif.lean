import Verif.Model.Base
import Verif.Model.SatSys
import Verif.Model.Obs
import Verif.Model.Num
import Verif.Model.Str
import Verif.Model.Antenna
import Verif.Model.Stream
import Verif.Model.Time
import Verif.Model.Nav
import Verif.Model.Orbit
import Verif.Spec.Numeral
import Verif.Spec.NavFile
import Verif.Spec.Orbit
import Verif.Lemmas.Base
import Verif.Lemmas.Num
import Verif.Lemmas.Stream
import Verif.Lemmas.Nav
import Verif.Props.SatSys
import Verif.Props.Obs
import Verif.Props.Str
import Verif.Props.Antenna
import Verif.Props.Nav
import Verif.Props.NavSearch
import Verif.Props.NavAny
import Verif.Props.NavBad
import Verif.Props.NavShort
import Verif.Props.NavBadExample
import Verif.Props.OrbitFpExample
import Verif.Props.NavExample
import Verif.Props.Kepler
import Verif.Props.Glonass
import Verif.Spec.Columns
import Verif.Lemmas.Columns
import Verif.Lemmas.Check
import Verif.Model.Sp3
import Verif.Spec.Sp3
import Verif.Props.Sp3Flag
import Verif.Props.Sp3
import Verif.Props.Sp3Any
import Verif.Props.Sp3Example
import Verif.Model.Bern
import Verif.Spec.Bern
import Verif.Lemmas.Term
import Verif.Props.Bern
import Verif.Props.BernAny
import Verif.Spec.BernOpen
import Verif.Spec.BernBad
import Verif.Props.BernOpen
import Verif.Props.BernExample
import Verif.Props.BernBad
import Verif.Model.Antex
import Verif.Spec.Antex
import Verif.Lemmas.Antex
import Verif.Props.Antex
import Verif.Props.AntexSat
import Verif.Props.AntexHist
import Verif.Props.AntexBad
import Verif.Props.AntexOpen
import Verif.Props.AntexAny
import Verif.Props.AntexExample
import Verif.Spec.AntexBad
import Verif.Props.AntexRaw
import Verif.Props.AntexDamage
import Verif.Props.AntexCut
import Verif.Props.AntexDamageExample
import Verif.Props.NavSeq
import Verif.Model.NavHead
import Verif.Spec.NavHead
import Verif.Spec.NavBad
import Verif.Props.NavHead
import Verif.Model.ObsRead
import Verif.Spec.ObsFile
import Verif.Spec.ObsExact
import Verif.Props.ObsMap
import Verif.Props.ObsField
import Verif.Props.ObsCollect
import Verif.Props.ObsEpoch
import Verif.Props.ObsSafe
import Verif.Props.ObsFile
import Verif.Props.ObsExample
import Verif.Model.Kalman
import Verif.Spec.Kalman
import Verif.Props.Kalman
import Verif.Model.ObsHead
import Verif.Spec.ObsHead
import Verif.Props.ObsTypes
import Verif.Props.ObsHead
import Verif.Props.ObsHeadExact
import Verif.Props.ObsHeadAny
import Verif.Props.ObsWhole
import Verif.Props.ObsHeadExample
import Verif.Model.Sp3Head
import Verif.Spec.Sp3Head
import Verif.Props.Sp3Head
import Verif.Props.Sp3HeadAny
import Verif.Props.Sp3HeadWhole
import Verif.Props.Sp3HeadExample
import Verif.Props.ObsHeadBad
import Verif.Props.ObsHeadBadExample
import Verif.Model.Pp
import Verif.Spec.Pp
import Verif.Props.Pp
import Verif.Props.PpExample
import Verif.Model.ObsText
import Verif.Spec.ObsText
import Verif.Props.ObsText
import Verif.Model.PpRun
import Verif.Spec.PpRun
import Verif.Props.PpGeom
import Verif.Props.PpEpoch
import Verif.Props.PpLoop
import Verif.Props.PpRunExample
import Verif.Model.Life
import Verif.Props.Life
import Verif.Model.PpProg
import Verif.Spec.PpProg
import Verif.Props.PpProg
import Verif.Props.PpProgExample
import Verif.Lemmas.Fuel
import Verif.Props.NavMixed
import Verif.Model.Debug
import Verif.Props.DebugNav
import Verif.Props.DebugObs
import Verif.Lemmas.Env
import Verif.Spec.BadField
import Verif.Lemmas.BadField
import Verif.Props.AntexSound
import Verif.Props.ObsRange
import Verif.Spec.Sp3Bad
import Verif.Props.Sp3Bad
import Verif.Spec.Sp3HeadBad
import Verif.Props.Sp3HeadBad
import Verif.Props.Sp3BadExample
import Verif.Props.ObsHeadRange
import Verif.Props.NavAccess
import Verif.Model.ReadFp
import Verif.Spec.ReadFp
import Verif.Props.ReadFp
import Verif.Props.ReadFpExample
import Verif.Model.GloFp
import Verif.Spec.GloFp
import Verif.Props.GloFp
import Verif.Props.GloFpMain
import Verif.Props.GloFpExample
import Verif.Spec.ObsBad
import Verif.Props.ObsBad
import Verif.Props.ObsBadExample
import Verif.Spec.ObsCut
import Verif.Props.ObsCut
import Verif.Props.ObsCutExample
import Verif.Spec.NavCut
import Verif.Props.NavCut
import Verif.Props.NavCutExample
import Verif.Spec.Sp3Cut
import Verif.Props.Sp3Cut
import Verif.Props.Sp3HeadCut
import Verif.Props.Sp3CutExample
import Verif.Props.NavStray
import Verif.Model.Interp
import Verif.Spec.Interp
import Verif.Props.Interp
import Verif.Props.InterpFile
import Verif.Props.InterpExample
import Verif.Spec.KeplerIter
import Verif.Props.KeplerStatus
import Verif.Model.NavTab
import Verif.Spec.NavTab
import Verif.Props.NavTab
import Verif.Props.NavTabProg
import Verif.Props.NavTabExample
import Verif.Spec.AntexSatBad
import Verif.Props.AntexSatBad
import Verif.Props.AntexSatBadExample
import Verif.Spec.BernCut
import Verif.Props.BernCut
import Verif.Props.BernHeadCut
import Verif.Props.BernCutExample
import Verif.Spec.HeadEnd
import Verif.Props.HeadEnd
import Verif.Props.HeadEndExample
import Verif.Model.Checks
import Verif.Props.Checks
import Verif.Model.NavList
import Verif.Spec.NavList
import Verif.Props.NavList
import Verif.Props.ChecksExample
import Verif.Model.GloList
import Verif.Spec.GloList
import Verif.Props.GloList
import Verif.Props.GloListExample
import Verif.Model.BernProg
import Verif.Spec.BernProg
import Verif.Props.BernProg
import Verif.Props.BernProgExample
import Verif.Model.Sp3Date
import Verif.Props.BadDate
import Verif.Props.BadDateExample
import Verif.Spec.Sp3Again
import Verif.Props.Sp3Again
import Verif.Props.Sp3AgainExample
import Verif.Props.BernHist
import Verif.Spec.AntexSound
import Verif.Props.AntexSoundText
import Verif.Spec.AntexOffsets
import Verif.Props.AntexOffsets
import Verif.Props.AntexOffsetsExample
import Verif.Spec.NumText
import Verif.Lemmas.NumText
import Verif.Spec.ObsSound
import Verif.Props.ObsSound
import Verif.Props.ObsSoundExample
import Verif.Spec.BernSound
import Verif.Props.BernSound
import Verif.Props.BernSoundExample
import Verif.Lemmas.RealText
import Verif.Spec.NavSound
import Verif.Props.NavSound
import Verif.Props.NavSoundExample
import Verif.Spec.Sp3Sound
import Verif.Props.Sp3Sound
import Verif.Props.Sp3SoundExample
import Verif.Spec.ObsLines
import Verif.Props.ObsLines
import Verif.Props.ObsLinesExample
import Verif.Spec.Sp3HeadSound
import Verif.Props.Sp3HeadSound
import Verif.Props.Sp3HeadSoundExample
import Verif.Spec.NavHeadSound
import Verif.Props.NavHeadSound
import Verif.Props.NavHeadSoundExample
import Verif.Spec.ObsHeadSound
import Verif.Props.ObsHeadSound
import Verif.Props.ObsHeadSoundExample
import Verif.Spec.AntexInfo
import Verif.Props.AntexInfo
import Verif.Props.AntexInfoExample
import Verif.Spec.AntexHeadSound
import Verif.Props.AntexHeadSound
import Verif.Props.AntexHeadSoundExample
import Verif.Spec.BernHeadSound
import Verif.Props.BernHeadSound
import Verif.Props.BernHeadSoundExample
import Verif.Spec.ObsHeadText
import Verif.Props.ObsHeadText
import Verif.Props.ObsHeadTextExample
import Verif.Props.AntexHistAny
import Verif.Props.AntexHistAnyExample
import Verif.Spec.Sp3Fate
import Verif.Props.Sp3Fate
import Verif.Props.Sp3FateExample
import Verif.Spec.NavFate
import Verif.Props.NavFate
import Verif.Props.NavFateExample
import Verif.Spec.ObsFate
import Verif.Props.ObsFate
import Verif.Props.ObsFateExample
import Verif.Spec.NavFind
import Verif.Props.NavFind
import Verif.Props.NavFindExample
import Verif.Spec.NavFindValid
import Verif.Props.NavFindValid
import Verif.Props.NavFindValidExample
import Verif.Spec.NavCursor
import Verif.Props.NavCursor
import Verif.Props.NavCursorExample
import Verif.Spec.Sp3Series
import Verif.Props.Sp3Series
import Verif.Props.Sp3SeriesExample
import Verif.Spec.ObsSeries
import Verif.Props.ObsSeries
import Verif.Props.ObsSeriesExample
import Verif.Spec.ObsGoOn
import Verif.Props.ObsGoOn
import Verif.Props.ObsGoOnExample
