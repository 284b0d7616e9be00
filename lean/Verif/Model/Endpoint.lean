import Verif.Model.Utils
/-
`_TransportHTTP._create_endpoint` (src/pypsrp/wsman.py 1100-1118).
-/
namespace Verif

/-- wsman.py 1100-1118. `ipv6 s` stands for `ipaddress.IPv6Address(s).compressed` from the standard library, `none`
when it raises AddressValueError. `%s` of the port is its decimal form. -/
def createEndpoint (ipv6 : PyStr → Option PyStr) (ssl : Bool) (server : PyStr) (port : Nat) (path : PyStr) : PyStr :=
  let scheme := if ssl then "https".toList else "http".toList
  let server := match ipv6 server with
    | none => server
    | some c => "[".toList ++ c ++ "]".toList
  scheme ++ "://".toList ++ server ++ ":".toList ++ pyStrNat port ++ "/".toList ++ path

end Verif
