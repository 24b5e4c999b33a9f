import Verif.Proofs.NetShow
import Verif.Model.Codecs

/- The addresses of a Compose file with the text that the standard library gives them: `IpAddr`
(/repo/src/network.rs:300-305, /repo/src/service.rs:269 and 345, /repo/src/service/build.rs:103, /repo/src/service/ports.rs:70 and
234, /repo/src/service/network_config.rs:403), `Ipv4Addr` and `Ipv6Addr` (/repo/src/service/network_config.rs:384-393).  They are
(de)serialized with `Display` and `FromStr`. -/

namespace Compose
open Rust Rust.Net

/-- `Ipv4Addr`, as in /repo/src/service/network_config.rs:384. -/
def Ipv4 : Type := { a : List Nat // Spec.Octets a }

/-- `Ipv6Addr`, as in /repo/src/service/network_config.rs:393. -/
def Ipv6 : Type := { a : List Nat // Spec.Groups a }

instance : DecidableEq Ipv4 := inferInstanceAs (DecidableEq { a : List Nat // Spec.Octets a })
instance : DecidableEq Ipv6 := inferInstanceAs (DecidableEq { a : List Nat // Spec.Groups a })

/-- `IpAddr`, as in /repo/src/service/ports.rs:70. -/
inductive Ip
  | v4 (a : Ipv4)
  | v6 (a : Ipv6)
  deriving DecidableEq

/-- The text of `Ipv4Addr`, /repo/src/service/network_config.rs:384. -/
def ipv4Text : TextType where
  Ty := Ipv4
  eq := inferInstance
  parse s := match h : parseIpv4 s with
    | some a => some ⟨a, (Proofs.parseIpv4_iff.1 h).1⟩
    | none => none
  «show» a := showIpv4 a.1

/-- The text of `Ipv6Addr`, /repo/src/service/network_config.rs:393. -/
def ipv6Text : TextType where
  Ty := Ipv6
  eq := inferInstance
  parse s := match h : parseIpv6 s with
    | some a => some ⟨a, Proofs.ipv6Text_groups (Proofs.parseIpv6_iff.1 h)⟩
    | none => none
  «show» a := showIpv6 a.1

/-- The text of `IpAddr`, /repo/src/service/ports.rs:70. -/
def ipText : TextType where
  Ty := Ip
  eq := inferInstance
  parse s := match h : parseIp s with
    | some (.inl a) => some (.v4 ⟨a, (Proofs.parseIp_v4.1 h).1⟩)
    | some (.inr a) => some (.v6 ⟨a, Proofs.ipv6Text_groups (Proofs.parseIp_v6.1 h)⟩)
    | none => none
  «show»
    | .v4 a => showIpv4 a.1
    | .v6 a => showIpv6 a.1

/-- What is taken from other crates, with the addresses of the standard library (/repo/src/service/network_config.rs:7). -/
def addressEnv (E : Env) : Env := { E with ip := ipText, ip4 := ipv4Text, ip6 := ipv6Text }

end Compose
