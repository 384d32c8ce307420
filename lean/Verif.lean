import Verif.Props.Calendars
import Verif.Props.CalendarsMore
import Verif.Props.AdesTags
import Verif.Props.Constell
import Verif.Props.Names
import Verif.Props.Easter
import Verif.Props.MutantHex
import Verif.Props.Numbers
import Verif.Props.Provisional
import Verif.Props.Surveys
import Verif.Props.Satellites
import Verif.Props.Comets
import Verif.Props.Packed
import Verif.Props.PackedExact
import Verif.Props.NetCodes
import Verif.Props.VarDesig
import Verif.Props.CString
import Verif.Props.Rotation
import Verif.Props.LeapSeconds
import Verif.Props.DeltaT
import Verif.Props.DesigMore
import Verif.Props.Spline
import Verif.Props.Brent
import Verif.Props.Cgi
import Verif.Props.GetBin
import Verif.Props.Mars
import Verif.Props.MarsEot
import Verif.Props.Replace
import Verif.Props.MpcTime
import Verif.Props.PackRef
import Verif.Props.Sof
import Verif.Props.SofDate
import Verif.Props.TimeSplit
import Verif.Props.Ctime
import Verif.Props.CtimeLayout
import Verif.Props.TimeText
import Verif.Props.TimeRead
import Verif.Props.TimeRound
import Verif.Props.TimeNames
import Verif.Props.TimeOffset
import Verif.Props.TimeKeys
import Verif.Props.TimeEra
import Verif.Props.CtimeCount
import Verif.Props.MpcDate
import Verif.Props.MpcAngle
import Verif.Props.QuickReal
import Verif.Props.AngleText
import Verif.Props.Place
import Verif.Props.Station
import Verif.Props.Ellipse
import Verif.Props.Region
import Verif.Props.Sphere
import Verif.Props.Precess
import Verif.Props.AltAz
import Verif.Props.Kepler
import Verif.Props.Orbit
import Verif.Props.AdesLines
import Verif.Props.AdesTrouble
import Verif.Props.AdesPsv
import Verif.Props.AdesXml
import Verif.Props.AdesSame
import Verif.Model.Multipart
import Verif.Spec.Multipart
import Verif.Props.Multipart
import Verif.Model.Csv
import Verif.Spec.Csv
import Verif.Props.Csv
import Verif.Model.Colors
import Verif.Spec.Colors
import Verif.Props.Colors
import Verif.Model.Refract
import Verif.Props.Refract
import Verif.Model.Refract4
import Verif.Props.Refract4
import Verif.Model.Moid
import Verif.Spec.Moid
import Verif.Spec.PlanetElem
import Verif.Props.Moid
import Verif.Props.PlanetElem
import Verif.Model.AddOff
import Verif.Spec.AddOff
import Verif.Props.AddOffLine
import Verif.Props.AddOffAsk
import Verif.Props.AddOffAnswer
import Verif.Props.AddOff
import Verif.Model.ShowElem
import Verif.Spec.ShowElem
import Verif.Props.ShowElemText
import Verif.Props.ShowElemEpoch
import Verif.Props.ShowElemDist
import Verif.Props.ShowElemRows
import Verif.Props.ShowElem
import Verif.Props.ShowElemOpen
import Verif.Model.Eop
import Verif.Spec.Eop
import Verif.Props.Eop
import Verif.Model.MpcOrb
import Verif.Spec.MpcOrb
import Verif.Props.MpcOrb
import Verif.Model.Mpc2Sof
import Verif.Props.Mpc2Sof
import Verif.Model.Ps1996
import Verif.Spec.Poisson
import Verif.Props.Ps1996
import Verif.Model.Vsop
import Verif.Spec.Vsop
import Verif.Props.Vsop
import Verif.Model.Lunar2
import Verif.Spec.Moon
import Verif.Props.Lunar2
import Verif.Model.ComFile
import Verif.Spec.CometName
import Verif.Props.ComFile
import Verif.Model.Cospar
import Verif.Spec.Orientation
import Verif.Props.Cospar
import Verif.Props.CosparFind
import Verif.Props.CosparUse
import Verif.Model.ChinesePack
import Verif.Spec.Lunisolar
import Verif.Props.ChinesePack
import Verif.Props.ChineseTable
import Verif.Props.ChineseYear
import Verif.Props.ChineseFind
import Verif.Props.B32
import Verif.Props.Mms
import Verif.Props.ThemCat
import Verif.Model.JEvent
import Verif.Spec.Events
import Verif.Props.JEvent
import Verif.Model.Themis
import Verif.Spec.Oem
import Verif.Props.Themis
import Verif.Model.PsCal
import Verif.Spec.Week
import Verif.Props.PsCal
import Verif.Model.Xxx2Rov
import Verif.Spec.Rover
import Verif.Props.Xxx2Rov
import Verif.Model.Persian
import Verif.Spec.Drift
import Verif.Props.Persian
import Verif.Model.JplUrl
import Verif.Spec.Address
import Verif.Props.JplUrl
import Verif.Model.Tycho
import Verif.Spec.Cubic
import Verif.Props.Tycho
import Verif.Model.Pollute
import Verif.Spec.Raster
import Verif.Props.Pollute
import Verif.Model.PsDates
import Verif.Spec.PostScript
import Verif.Props.PsDates
