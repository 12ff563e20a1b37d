import Verif.Props.App
import Verif.Props.AppHeader
import Verif.Props.AppRun
import Verif.Props.Attacker
import Verif.Props.Bench
import Verif.Props.BenchUtils
import Verif.Props.BlockChain
import Verif.Props.Bytes
import Verif.Props.ChainHash
import Verif.Props.Collision
import Verif.Props.Content
import Verif.Props.Cost
import Verif.Props.DataHeader
import Verif.Props.DecResult
import Verif.Props.ErrorMessage
import Verif.Props.Faults
import Verif.Props.FileSys
import Verif.Props.Flaw
import Verif.Props.Garble
import Verif.Props.Handler
import Verif.Props.HeaderGen
import Verif.Props.HeaderSize
import Verif.Props.HeaderTime
import Verif.Props.Heap
import Verif.Props.Isolation
import Verif.Props.Leak
import Verif.Props.Links
import Verif.Props.Listing
import Verif.Props.Listless
import Verif.Props.Log
import Verif.Props.Main
import Verif.Props.MainLog
import Verif.Props.MemParser
import Verif.Props.Misc
import Verif.Props.Modes
import Verif.Props.Names
import Verif.Props.NoCrash
import Verif.Props.Overlap
import Verif.Props.Pace
import Verif.Props.Password
import Verif.Props.PasswordData
import Verif.Props.PwFunc
import Verif.Props.Random
import Verif.Props.Rollback
import Verif.Props.SamePassword
import Verif.Props.Sample
import Verif.Props.Save
import Verif.Props.Secrecy
import Verif.Props.Select
import Verif.Props.SelectOther
import Verif.Props.Session
import Verif.Props.Settings
import Verif.Props.Sha2
import Verif.Props.SharedTimed
import Verif.Props.Sharing
import Verif.Props.StateChart
import Verif.Props.StoredSalt
import Verif.Props.Tamper
import Verif.Props.Told
import Verif.Props.Vault
import Verif.Validation.FileTests
import Verif.Validation.UnitTests
import Verif.Audit
