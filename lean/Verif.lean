import Verif.Bytes
import Verif.Prims
import Verif.Model.Cbc
import Verif.Proof.Cbc
import Verif.Model.Wire
import Verif.Proof.Wire
import Verif.Model.Keys
import Verif.Model.Files
import Verif.Model.Messages
import Verif.Proof.Files
import Verif.Props.Symmetric
import Verif.Proof.Messages
import Verif.Props.MessageWire
import Verif.Model.Session
import Verif.Model.Names
import Verif.Model.Api
import Verif.Proof.Chain
import Verif.Proof.Session
import Verif.Props.Ratchet
import Verif.Proof.Api
import Verif.Props.Demo
import Verif.Props.Store
import Verif.Proof.Shape
import Verif.Props.Replay
import Verif.Spec.Conversation
import Verif.Proof.Conversation
import Verif.Props.Conversation
import Verif.Model.Record
import Verif.Proof.Record
import Verif.Proof.Invariant
import Verif.Props.Record
import Verif.Model.Concurrent
import Verif.Proof.Concurrent
import Verif.Props.Concurrent
import Verif.Model.Fingerprint
import Verif.Proof.Fingerprint
import Verif.Props.Fingerprint
import Verif.Model.Encoding
import Verif.Proof.Encoding
import Verif.Props.Encoding
import Verif.Model.PreKeys
import Verif.Proof.PreKeys
import Verif.Props.PreKeys
import Verif.Model.Sign
import Verif.Props.Sign
import Verif.Model.Receive
import Verif.Proof.Receive
import Verif.Props.Receive
import Verif.Model.Send
import Verif.Proof.Send
import Verif.Props.Send
import Verif.Model.GroupsV1
import Verif.Props.Growth
import Verif.Props.Protocol
import Verif.Props.GroupFiles
import Verif.Props.GroupsV1
import Verif.Model.GroupsV2
import Verif.Spec.GroupsV2
import Verif.Proof.GroupsV2
import Verif.Props.GroupsV2
import Verif.Props.GroupParts
import Verif.Props.Gateway
import Verif.Model.Regex
import Verif.Proof.Regex
import Verif.Model.Contacts
import Verif.Proof.Contacts
import Verif.Model.Sync
import Verif.Proof.Sync
import Verif.Props.Sync
import Verif.Model.Gcm
import Verif.Model.Discovery
import Verif.Spec.Discovery
import Verif.Proof.Discovery
import Verif.Props.Discovery
import Verif.Model.Profile
import Verif.Model.Start
import Verif.Proof.Profile
import Verif.Proof.Register
import Verif.Props.Profile
import Verif.Props.ByNumber
import Verif.Props.Shown
import Verif.Props.Start
import Verif.Model.Crayfish
import Verif.Model.Register
import Verif.Props.Crayfish
import Verif.Props.Sessions
import Verif.Props.Register
import Verif.Model.GroupStore
import Verif.Proof.GroupStore
import Verif.Props.GroupStore
import Verif.Model.Attest
import Verif.Spec.Attest
import Verif.Props.Attest
import Verif.Model.Paths
import Verif.Props.Paths
import Verif.Model.Content
import Verif.Spec.Clients
import Verif.Proof.Clients
import Verif.Proof.Reset
import Verif.Proof.Content
import Verif.Props.Clients
import Verif.Props.Reset
import Verif.Model.Http
import Verif.Spec.Http
import Verif.Proof.Http
import Verif.Props.Http
import Verif.Proof.Apart
import Verif.Props.Others
import Verif.Model.Identity
import Verif.Model.AtRest
import Verif.Props.Identity
import Verif.Props.AtRest
import Verif.Props.Linked
import Verif.Props.Config
import Verif.Props.Backend
import Verif.Props.Mailbox
import Verif.Props.Network
import Verif.Props.Listening
import Verif.Props.Answers
import Verif.Props.Reader
import Verif.Props.Account
import Verif.Props.Theft
import Verif.Spec.Healing
import Verif.Proof.Healing
import Verif.Props.Healing
import Verif.Model.GroupAttach
import Verif.Props.GroupAttach
import Verif.Props.Crossing
import Verif.Props.StartOver
import Verif.Props.OldSessions
import Verif.Props.Dialogue
import Verif.Props.Maps
import Verif.Props.Companion
import Verif.Props.Later
import Verif.Props.Interop
import Verif.Props.GroupView
import Verif.Props.Listing
import Verif.Props.GroupTalk
import Verif.Props.GroupCopies
import Verif.Props.Console
import Verif.Props.Echo
import Verif.Props.Setup
import Verif.Props.ContactFile
import Verif.Props.BackendEnd
import Verif.Props.BackendStop
import Verif.Props.Deadline
import Verif.Props.Logging
import Verif.Props.Avatars
import Verif.Props.Redis
import Verif.Props.Hidden
