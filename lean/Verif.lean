import Verif.Spec.KnownAnswers
import Verif.Props.XXH32
import Verif.Props.XXH64
import Verif.Props.XXH3
import Verif.Props.XXH3Stream
import Verif.Props.Build
import Verif.Props.Secret
import Verif.Props.Collision
import Verif.Props.Dispatch
import Verif.Props.Alloc
import Verif.Props.CliText
import Verif.Props.CliFile
import Verif.Props.CliEnd
import Verif.Props.CliShow
import Verif.Props.CliMain
import Verif.Props.Cryptol
import Verif.Props.SelfTest
import Verif.Props.DispatchThreads
import Verif.Props.Limits
import Verif.Props.Uniform
import Verif.Props.Bench
import Verif.Props.Collide
import Verif.Props.Pool
import Verif.Props.CliProgram
import Verif.Props.Select
import Verif.Props.CliTrace
import Verif.Props.SanityTest
import Verif.Props.Windows
import Verif.Props.TestBench
import Verif.Props.Wrap
import Verif.Props.Arch
import Verif.Props.Refs
import Verif.Props.Layout
import Verif.Props.Include
import Verif.Props.Threads
import Verif.Props.SecretOverlap
