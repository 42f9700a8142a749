import Verif.Parser
import Verif.Tests
import Verif.DecodeLemmas
import Verif.SrcLemmas
import Verif.NumLemmas
import Verif.ThmReader
import Verif.Run
import Verif.ThmValues
import Verif.ThmCalendar
import Verif.ThmText
import Verif.ThmContext
import Verif.ThmArmtext
import Verif.Stream
import Verif.ThmPackets
import Verif.Keeps
import Verif.SpecSig
import Verif.SpecPackets
import Verif.SubLemmas
import Verif.SrcAny
import Verif.Rel
import Verif.RelItems
import Verif.RelSubs
import Verif.RelTags
import Verif.Unpack
import Verif.RelParse
import Verif.ThmHeader
import Verif.ThmParse
import Verif.ThmEmbed
import Verif.ThmCompressed
import Verif.Inv
import Verif.ThmSubs
import Verif.Local
import Verif.ThmUnknownSubs
import Verif.SpecFields
import Verif.Account
import Verif.ThmAccount
import Verif.ThmTrunc
import Verif.SpecLines
import Verif.ThmScanner
import Verif.ThmNew
import Verif.SpecHidden
import Verif.Moves
import Verif.Two
import Verif.TwoTags
import Verif.ThmHidden
import Verif.SpecHistory
import Verif.SpecRender
import Verif.Mon
import Verif.MonTags
import Verif.ThmHistory
import Verif.ThmRender
import Verif.Count
import Verif.CountTags
import Verif.ThmCount
import Verif.Json
import Verif.SpecJson
import Verif.JsonLemmas
import Verif.JsonIndent
import Verif.ThmJson
import Verif.SpecURL
import Verif.Hkp
import Verif.ThmHkp
import Verif.Github
import Verif.ThmGithub
import Verif.Facade
import Verif.ThmFacade
import Verif.ThmDeep
import Verif.SpecAccept
import Verif.Accept
import Verif.AcceptFields
import Verif.AcceptKeys
import Verif.AcceptSubs
import Verif.AcceptCut
import Verif.AcceptTags
import Verif.ThmAccept
import Verif.SpecDisplay
import Verif.DisplayRows
import Verif.Display
import Verif.DisplayKeys
import Verif.DisplaySubs
import Verif.DisplayTags
import Verif.ThmDisplay
import Verif.SpecPanic
import Verif.Panic
import Verif.PanicKeys
import Verif.PanicTags
import Verif.ThmPanic
import Verif.SpecNil
import Verif.Nil
import Verif.NilTags
import Verif.ThmNil
import Verif.ThmCLI
import Verif.SpecFull
import Verif.Full
import Verif.FullTags
import Verif.Unique
import Verif.FullAcc
import Verif.ThmFull
import Verif.ThmControl
import Verif.SpecFail
import Verif.Fail
import Verif.FailKeys
import Verif.FailTags
import Verif.ThmFail
import Verif.ThmOutcome
import Verif.Armor
import Verif.SpecArmor
import Verif.CrcLemmas
import Verif.ArmorLemmas
import Verif.ArmorReal
import Verif.ThmArmor
import Verif.ReaderApi
import Verif.ThmReaderApi
import Verif.ContextApi
import Verif.ThmContextApi
import Verif.ThmNotation
import Verif.ParserApi
import Verif.ThmParserApi
import Verif.Completion
import Verif.ThmCompletion
import Verif.ThmReadBack
import Verif.PacketsApi
import Verif.LocalTags
import Verif.ThmPacketsApi
import Verif.ThmPacketsInner
import Verif.ResultApi
import Verif.ThmResultApi
import Verif.Days
import Verif.DaysLemmas
import Verif.ThmDays
import Verif.LocalTime
import Verif.ThmLocalTime
import Verif.SpecMemory
import Verif.ThmMemory
import Verif.CasePackets
import Verif.CaseInput
import Verif.CaseValues
import Verif.GithubJson
import Verif.SpecGithub
import Verif.GithubScan
import Verif.GithubDecode
import Verif.ThmGithubJson
import Verif.GithubTime
import Verif.ThmGithubTime
import Verif.TestsGithub
import Verif.CmdLine
import Verif.SpecCmdLine
import Verif.CmdLineLemmas
import Verif.CmdLineParse
import Verif.ThmCmdLine
import Verif.ThmUsage
import Verif.Url
import Verif.ThmUrl
import Verif.Net
import Verif.ThmNet
import Verif.Main
import Verif.ThmMain
import Verif.ThmSave
import Verif.Stderr
import Verif.ThmStderr
import Verif.ResultJson
import Verif.ThmResultJson
import Verif.ThmReadTool
import Verif.ThmWrite
import Verif.Nest
import Verif.ThmNest
import Verif.ValuesApi
import Verif.ThmValuesApi
import Verif.PubkeyApi
import Verif.ThmPubkeyApi
import Verif.SubsApi
import Verif.ThmSubsApi
import Verif.ThmSubsError
import Verif.ThmSubsOutcome
import Verif.ThmSubsImage
import Verif.TagsApi
import Verif.ThmTagsApi
import Verif.CutKeys
import Verif.CutSecret
import Verif.ThmTagsError
import Verif.UniqueCut
import Verif.ThmTagsFull
import Verif.ThmTagsMemory
