import Verif.Dispatch.Props
import Verif.Config.Props
import Verif.Config.LoadProps
import Verif.Handle.PEnvProps
import Verif.Handle.TokenProps
import Verif.Handle.DataProps
import Verif.Handle.PhaseProps
import Verif.Handle.ItemProps
import Verif.Handle.AskProps
import Verif.Util.InlineProps
import Verif.Util.IOLoopProps
import Verif.Util.FilesProps
import Verif.Util.PrivProps
import Verif.Pamc.Props
import Verif.Pamc.NameProps
import Verif.Time.LogicProps
import Verif.Time.RuleProps
import Verif.SucceedIf.Props
import Verif.Faillock.ConcProps
import Verif.Faillock.ConfigProps
import Verif.Access.FileProps
import Verif.Access.NetProps
import Verif.Access.WordProps
import Verif.Limits.Props
import Verif.Limits.Domains
import Verif.Limits.Session
import Verif.Limits.Logins
import Verif.Pwhistory.OptionProps
import Verif.Unix.CryptProps
import Verif.Unix.ShadowProps
import Verif.Unix.CtrlProps
import Verif.Unix.CallFlags
import Verif.Unix.HelperProps
import Verif.Unix.AuthProps
import Verif.Unix.AcctProps
import Verif.Unix.LoginProps
import Verif.Unix.FilesProps
import Verif.Unix.SetProps
import Verif.Unix.UpdProps
import Verif.Unix.OpwProps
import Verif.Unix.ChProps
import Verif.Small.Basics
import Verif.Small.Listfile
import Verif.Small.ListfileProps
import Verif.Small.Gates
import Verif.Small.WheelProps
import Verif.Small.NologinProps
import Verif.Small.SecurettyProps
import Verif.Small.UsertypeProps
import Verif.Env.LineNul
import Verif.Env.Model
import Verif.Env.Spec
import Verif.Env.PutLemmas
import Verif.Env.ParseLemmas
import Verif.Env.ExpandLemmas
import Verif.Env.ConfLemmas
import Verif.Env.EnvFileLemmas
import Verif.Env.HandleLemmas
import Verif.Env.TotalLemmas
import Verif.Env.Props
import Verif.Digest.Basics
import Verif.Digest.Sha1
import Verif.Digest.Sha1Spec
import Verif.Digest.Absorb
import Verif.Digest.Sha1Block
import Verif.Digest.Sha1Stream
import Verif.Digest.HmacLemmas
import Verif.Digest.Sha1Props
import Verif.Digest.Md5
import Verif.Digest.Md5Spec
import Verif.Digest.Md5Block
import Verif.Digest.Md5Stream
import Verif.Digest.Md5Crypt
import Verif.Digest.Md5CryptSpec
import Verif.Digest.Md5CryptLemmas
import Verif.Digest.Md5Props
import Verif.Timestamp.Model
import Verif.Timestamp.Spec
import Verif.Timestamp.Lemmas
import Verif.Timestamp.CheckLemmas
import Verif.Timestamp.Props
import Verif.Misc.Conv
import Verif.Misc.ConvProps
import Verif.Misc.HelpEnv
import Verif.Misc.HelpEnvProps
import Verif.Misc.Sanitize
import Verif.Misc.SanitizeProps
import Verif.Mkhome.Model
import Verif.Mkhome.Spec
import Verif.Mkhome.Lemmas
import Verif.Mkhome.Frame
import Verif.Mkhome.Succeeds
import Verif.Mkhome.Props
import Verif.Userdb.Model
import Verif.Userdb.Props
import Verif.Namespace.Config
import Verif.Namespace.Spec
import Verif.Namespace.WordsProps
import Verif.Namespace.ConfigProps
import Verif.Namespace.Session
import Verif.Namespace.SessionProps
import Verif.Namespace.Opendir
import Verif.Namespace.OpendirSpec
import Verif.Namespace.OpendirProps
import Verif.Exec.Model
import Verif.Exec.Spec
import Verif.Exec.Options
import Verif.Exec.Props
import Verif.Xauth.Model
import Verif.Xauth.Props
import Verif.Simple.Login
import Verif.Simple.LoginProps
import Verif.Simple.Umask
import Verif.Simple.UmaskProps
import Verif.Show.Echo
import Verif.Show.EchoProps
import Verif.Show.Issue
import Verif.Show.IssueProps
import Verif.Show.Motd
import Verif.Show.MotdProps
import Verif.Session.Loginuid
import Verif.Session.LoginuidProps
import Verif.Session.Keyinit
import Verif.Session.KeyinitProps
import Verif.Mail.Model
import Verif.Mail.Props
import Verif.Lastlog.Model
import Verif.Lastlog.Props
import Verif.Audit.Tty
import Verif.Audit.TtyProps
import Verif.Audit.Sepermit
import Verif.Audit.SepermitProps
import Verif.Quota.Model
import Verif.Quota.Lemmas
import Verif.Quota.Props
import Verif.Modutil.Lookup
import Verif.Modutil.LookupProps
import Verif.Modutil.Prompt
import Verif.Modutil.PromptProps
import Verif.Dispatch.Audit
import Verif.Dispatch.AuditProps
import Verif.Config.Modules
import Verif.Config.ModulesProps
import Verif.Limits.Kernel
import Verif.Limits.KernelProps
import Verif.Faillock.Tool
import Verif.Faillock.ToolProps
import Verif.Pwhistory.Helper
import Verif.Pwhistory.HelperProps
import Verif.Selinux.Model
import Verif.Selinux.Spec
import Verif.Selinux.Props
import Verif.Selinux.SessionProps
import Verif.Handle.Delay
import Verif.Handle.DelayProps
import Verif.Filter.Model
import Verif.Filter.Spec
import Verif.Filter.Props
import Verif.Filter.ProcProps
import Verif.Filter.Swap
import Verif.Filter.SwapProps
import Verif.Unix.Confined
import Verif.Unix.ConfinedProps
import Verif.Unix.Sess
import Verif.Unix.SessProps
import Verif.Misc.Alarm
import Verif.Misc.AlarmProps
import Verif.Selinux.ChoiceProps
import Verif.Filter.CodeProps
import Verif.Namespace.Setup
import Verif.Namespace.SafeProps
import Verif.Namespace.ScriptProps
import Verif.Namespace.SetupProps
import Verif.Namespace.TmpProps
import Verif.Stack.Pass
import Verif.Stack.Faillock
import Verif.Stack.FaillockEval
import Verif.Stack.FaillockProps
import Verif.Stack.Walk
import Verif.Stack.Other
import Verif.Stack.OtherProps
import Verif.Stack.Su
import Verif.Stack.SuProps
import Verif.Stack.Pure
import Verif.Stack.Shipped
import Verif.Stack.ShippedRows
import Verif.Stack.ShippedCall
import Verif.Stack.ShippedProps
import Verif.Whole.Unix
import Verif.Whole.Call
import Verif.Whole.Runs
import Verif.Whole.LoginSpec
import Verif.Whole.AuthCall
import Verif.Whole.LoginProps
import Verif.Whole.AcctCall
import Verif.Whole.AcctProps
import Verif.Whole.TriesProps
import Verif.Whole.Demo
import Verif.Whole.Change
import Verif.Whole.ChangeRuns
import Verif.Whole.ChangePasses
import Verif.Whole.ChangeCall
import Verif.Whole.ChangeSpec
import Verif.Whole.ChangeProps
import Verif.Whole.ChangeDemo
import Verif.Dispatch.Denied
import Verif.Whole.CredCall
import Verif.Whole.CredProps
import Verif.Whole.CredDemo
import Verif.Whole.DeniedProps
import Verif.Whole.DeniedDemo
import Verif.Dispatch.Guard
import Verif.Whole.GuardCall
import Verif.Whole.GuardProps
import Verif.Whole.GuardDemo
import Verif.Helper.Model
import Verif.Helper.Props
import Verif.Whole.GuardChange
import Verif.Whole.GuardChangeProps
import Verif.Audit.Running
import Verif.Audit.RunningProps
import Verif.Env.Buffer
import Verif.Env.BufferProps
import Verif.Audit.Netlink
import Verif.Audit.NetlinkProps
import Verif.Namespace.Resources
import Verif.Namespace.ResourcesProps
import Verif.Namespace.Open
import Verif.Namespace.OpenProps
import Verif.Namespace.Lists
import Verif.Namespace.ListsProps
import Verif.Log.Model
import Verif.Log.Props
import Verif.Handle.Reenter
import Verif.Handle.ReenterProps
import Verif.Filter.Table
import Verif.Filter.TableProps
import Verif.Userdb.Memory
import Verif.Userdb.MemoryProps
import Verif.Env.Owner
import Verif.Env.OwnerLemmas
import Verif.Env.OwnerProps
import Verif.Unix.Failures
import Verif.Unix.FailuresProps
import Verif.Simple.Stress
import Verif.Simple.StressProps
