import Verif.Props.Encode
import Verif.Props.Key
import Verif.Props.Value
import Verif.Props.Ident
import Verif.Props.IdLocks
import Verif.Props.Memory
import Verif.Props.Storage
import Verif.Props.World
import Verif.Props.Engine
import Verif.Props.Session
import Verif.Props.Scan
import Verif.Props.Parse
import Verif.Props.Expr
import Verif.Props.Print
import Verif.Props.PrintStmt
import Verif.Props.RingParse
import Verif.Props.Position
import Verif.Props.Copy
import Verif.Props.Exists
import Verif.Props.Listing
import Verif.Props.TypedScan
import Verif.Props.Console
import Verif.Props.Rows
import Verif.Props.Statement
import Verif.Props.Columns
import Verif.Props.Define
import Verif.Model.Evaluate
import Verif.Spec.Evaluate
import Verif.Lemmas.Evaluate
import Verif.Lemmas.FakeEngine
import Verif.Props.Evaluate
import Verif.Replay.Env
import Verif.Replay.Same
import Verif.Replay.Parser
import Verif.Replay.Scanner
import Verif.Replay.Print
import Verif.Replay.Values
import Verif.Replay.Texts
import Verif.Replay.Store
import Verif.Replay.Storage
import Verif.Replay.EngineRun
import Verif.Replay.Engine
import Verif.Replay.Evaluate
import Verif.Model.Memory
import Verif.Spec.Memory
import Verif.Lemmas.Memory
import Verif.Spec.Names
import Verif.Props.Names
import Verif.Model.Literals
import Verif.Model.ScanBuffer
import Verif.Spec.Literals
import Verif.Lemmas.Literals
import Verif.Lemmas.LiteralsExpr
import Verif.Lemmas.LiteralsStmt
import Verif.Lemmas.ScanBuffer
import Verif.Lemmas.ScanBufferSmall
import Verif.Props.Literals
import Verif.Spec.Fields
import Verif.Lemmas.Fields
import Verif.Props.Fields
import Verif.Spec.Constraints
import Verif.Lemmas.Constraints
import Verif.Props.Constraints
import Verif.Spec.TypedValues
import Verif.Lemmas.TypedValues
import Verif.Props.TypedValues
import Verif.Model.Messages
import Verif.Spec.Messages
import Verif.Lemmas.Messages
import Verif.Props.Messages
import Verif.Spec.Layout
import Verif.Lemmas.Layout
import Verif.Lemmas.LayoutConsole
import Verif.Props.Layout
import Verif.Lemmas.Ahead
import Verif.Lemmas.AheadText
import Verif.Props.Ahead
