import Verif.Go.Basic
import Verif.Go.Strings
import Verif.Go.StringsFacts
import Verif.Go.TrimFacts
import Verif.Go.Strconv
import Verif.Go.Base64
import Verif.Go.Json
import Verif.Go.JsonFacts
import Verif.Go.JsonSound
import Verif.Go.Time
import Verif.Go.Env
import Verif.Go.Aes
import Verif.Go.Sha
import Verif.Go.Crypto
import Verif.Go.Sort
import Verif.Go.Fmt
import Verif.Go.Path
import Verif.Go.Glob
import Verif.Go.PathFacts
import Verif.Spec.Opdata
import Verif.Spec.Encoding
import Verif.Model.Profile
import Verif.Model.Key
import Verif.Model.KeyFacts
import Verif.Model.Domain
import Verif.Model.Item
import Verif.Model.Repo
import Verif.Model.Session
import Verif.Model.SessionFacts
import Verif.Props.Opdata
import Verif.Props.Session
import Verif.Props.Sample
import Verif.Spec.Registry
import Verif.Spec.Bands
import Verif.Spec.ItemDocs
import Verif.Model.RepoFacts
import Verif.Model.ItemFacts
import Verif.Props.Queries
import Verif.Spec.Render
import Verif.Props.Load
import Verif.Props.Items
import Verif.Model.World
import Verif.Model.Config
import Verif.Model.Update
import Verif.Model.Cli
import Verif.Model.WorldFacts
import Verif.Model.ConfigFacts
import Verif.Model.Toy
import Verif.Model.FootFacts
import Verif.Spec.Answers
import Verif.Props.Config
import Verif.Props.Configure
import Verif.Props.FirstRun
import Verif.Model.UpdateFacts
import Verif.Model.SimFacts
import Verif.Spec.Release
import Verif.Props.Release
import Verif.Props.Install
import Verif.Props.Throttle
import Verif.Props.Commands
import Verif.Props.Consent
import Verif.Model.Gui
import Verif.Model.GuiFacts
import Verif.Model.GuiSteps
import Verif.Props.GuiDemo
import Verif.Props.GuiScreens
import Verif.Spec.Menu
import Verif.Props.GuiMenu
import Verif.Props.GuiCursor
import Verif.Props.GuiCrash
import Verif.Props.Own
import Verif.Model.GuiIndep
import Verif.Props.GuiCheck
import Verif.Props.GuiFoot
import Verif.Model.ParFacts
import Verif.Props.Leak
import Verif.Props.GuiLeak
import Verif.Props.Vault
import Verif.Model.Args
import Verif.Spec.CommandLine
import Verif.Props.CommandLine
import Verif.Props.Process
import Verif.Props.Password
import Verif.Props.Clock
import Verif.Model.Relabel
import Verif.Props.Messages
import Verif.Props.GuiBlind
import Verif.Props.Display
import Verif.Props.GuiHelp
import Verif.Props.GuiMask
import Verif.Props.Printed
import Verif.Props.Damaged
import Verif.Props.Status
import Verif.Props.Timeout
import Verif.Spec.Pattern
import Verif.Go.MatchFacts
import Verif.Props.Glob
import Verif.Props.Dialog
import Verif.Props.GuiReach
import Verif.Props.BadPattern
import Verif.Props.Range
import Verif.Go.Float64
import Verif.Go.Md5
import Verif.Go.Ftoa
import Verif.Go.FtoaFacts
import Verif.Go.FtoaExact
import Verif.Go.Float64Nearest
import Verif.Go.FtoaRead
import Verif.Props.Numbers
import Verif.Props.Notice
import Verif.Props.Agree
import Verif.Props.Later
import Verif.Props.Publish
import Verif.Props.Unread
import Verif.Props.Versions
import Verif.Props.Race
import Verif.Props.Configured
import Verif.Model.Http
import Verif.Props.Wait
import Verif.Props.Verdict
import Verif.Props.Quit
import Verif.Props.Rarely
import Verif.Props.Stages
import Verif.Props.Alone
import Verif.Props.ListOnly
import Verif.Props.Fds
import Verif.Props.Confirm
import Verif.Props.Panes
import Verif.Props.Stray
import Verif.Props.Retry
import Verif.Props.TwoConfigs
import Verif.Model.Tty
import Verif.Props.Tty
import Verif.Props.Gone
import Verif.Props.Torn
import Verif.Props.Changed
import Verif.Props.Blamed
import Verif.Props.HalfStamp
import Verif.Props.Entered
import Verif.Props.Asked
import Verif.Props.Bracket
import Verif.Model.Echo
import Verif.Props.Interrupt
import Verif.Props.Spill
import Verif.Props.Silence
import Verif.Props.GuiPeriod
import Verif.Props.Newest
import Verif.Props.Makefile
import Verif.Props.Sober
import Verif.Props.Secure
import Verif.Spec.Rfc
import Verif.Props.Grammar
import Verif.Props.Repeat
import Verif.Props.RepeatGui
import Verif.Props.Prompt
