import Verif.Lemmas.Numbers
import Verif.Model.Endpoint
/-
C65: endpoints.
-/
namespace Verif

/-- The host at the start of an authority: a bracketed literal, or everything up to the first colon. -/
def readHost : PyStr → Bool × PyStr × PyStr
  | '[' :: r => (true, r.takeWhile (· ≠ ']'), (r.dropWhile (· ≠ ']')).drop 1)
  | r => (false, r.takeWhile (· ≠ ':'), r.dropWhile (· ≠ ':'))

/-- A reader of `scheme://host:port/path` URLs following RFC 3986: an IP literal is enclosed in brackets, any other
host ends at the first colon. Returns scheme, whether the host is a literal, host, port and path. -/
def readUrl (url : PyStr) : Option (PyStr × Bool × PyStr × Nat × PyStr) :=
  let scheme := url.takeWhile (· ≠ ':')
  match url.dropWhile (· ≠ ':') with
  | ':' :: '/' :: '/' :: rest =>
    match readHost rest with
    | (literal, host, ':' :: r) =>
      let port := r.takeWhile (·.isDigit)
      match r.dropWhile (·.isDigit) with
      | '/' :: path => if port = [] then none else some (scheme, literal, host, decimalValue port, path)
      | _ => none
    | _ => none
  | _ => none

theorem takeWhile_stop {α : Type} {p : α → Bool} {l : List α} {a : α} {r : List α} (hl : ∀ x ∈ l, p x = true)
    (ha : p a = false) : (l ++ a :: r).takeWhile p = l ∧ (l ++ a :: r).dropWhile p = a :: r := by
  induction l with
  | nil => simp [ha]
  | cons b l ih =>
    have hb := hl b (by simp)
    have := ih (fun x hx => hl x (by simp [hx]))
    simp [hb, this]

/-- C65. A URL reader recovers the scheme, host, port and path from the endpoint: an address that the standard library
reads as IPv6 appears as a bracketed literal in its compressed form, any other host appears as given. -/
theorem C65_endpoint (ipv6 : PyStr → Option PyStr) (ssl : Bool) (server : PyStr) (port : Nat) (path : PyStr)
    (hlit : ∀ c, ipv6 server = some c → ']' ∉ c)
    (hhost : ipv6 server = none → ':' ∉ server ∧ server.head? ≠ some '[') :
    readUrl (createEndpoint ipv6 ssl server port path) =
      some (if ssl then "https".toList else "http".toList, (ipv6 server).isSome, (ipv6 server).getD server, port,
        path) := by
  have hport : ∀ p : PyStr, ((pyStrNat port ++ '/' :: p).takeWhile (·.isDigit)) = pyStrNat port ∧
      ((pyStrNat port ++ '/' :: p).dropWhile (·.isDigit)) = '/' :: p := fun p =>
    takeWhile_stop (pyStrNat_decimal port).2 (by decide)
  have hsch : ∀ r : PyStr, ((if ssl then "https".toList else "http".toList) ++ (':' :: r)).takeWhile (· ≠ ':') =
      (if ssl then "https".toList else "http".toList) ∧
      ((if ssl then "https".toList else "http".toList) ++ (':' :: r)).dropWhile (· ≠ ':') = ':' :: r := fun r =>
    takeWhile_stop (by cases ssl <;> decide) (by decide)
  have hne := (pyStrNat_decimal port).1
  unfold createEndpoint
  cases h6 : ipv6 server with
  | none =>
    obtain ⟨hcol, hbr⟩ := hhost h6
    have e : (if ssl then "https".toList else "http".toList) ++ "://".toList ++ server ++ ":".toList ++
        pyStrNat port ++ "/".toList ++ path =
        (if ssl then "https".toList else "http".toList) ++ (':' :: ('/' :: '/' :: (server ++ (':' ::
          (pyStrNat port ++ ('/' :: path)))))) := by simp
    simp only
    rw [e, readUrl, (hsch _).1, (hsch _).2]
    simp only
    have hsrv := takeWhile_stop (p := fun c => decide (c ≠ ':')) (l := server) (a := ':')
      (r := pyStrNat port ++ ('/' :: path)) (by intro x hx; simp; rintro rfl; exact hcol hx) (by decide)
    have hnb : ∀ r, server ++ ':' :: (pyStrNat port ++ '/' :: path) ≠ '[' :: r := by
      intro r hr
      cases server with
      | nil => simp at hr
      | cons a as => simp at hr; simp [hr.1] at hbr
    have hh : readHost (server ++ ':' :: (pyStrNat port ++ '/' :: path)) =
        (false, server, ':' :: (pyStrNat port ++ '/' :: path)) := by
      unfold readHost
      split
      · rename_i r heq; exact absurd heq (hnb r)
      · rw [hsrv.1, hsrv.2]
    simp only [hh, (hport path).1, (hport path).2, hne, if_false, decimalValue_pyStrNat, Option.isSome, Option.getD]
  | some c =>
    have hc := hlit c h6
    have e : (if ssl then "https".toList else "http".toList) ++ "://".toList ++ ("[".toList ++ c ++ "]".toList) ++
        ":".toList ++ pyStrNat port ++ "/".toList ++ path =
        (if ssl then "https".toList else "http".toList) ++ (':' :: ('/' :: '/' :: '[' :: (c ++ (']' :: ':' ::
          (pyStrNat port ++ ('/' :: path)))))) := by simp
    simp only
    rw [e, readUrl, (hsch _).1, (hsch _).2]
    simp only
    have hsrv := takeWhile_stop (p := fun x => decide (x ≠ ']')) (l := c) (a := ']')
      (r := ':' :: (pyStrNat port ++ ('/' :: path))) (by intro x hx; simp; rintro rfl; exact hc hx) (by decide)
    simp only [readHost, hsrv.1, hsrv.2, List.drop_one, List.tail_cons, (hport path).1, (hport path).2, hne, if_false,
      decimalValue_pyStrNat, Option.isSome, Option.getD]

/-- Both kinds of host occur. -/
example : createEndpoint (fun s => if s = "2001:DB8:0:0::1".toList then some "2001:db8::1".toList else none) true
    "2001:DB8:0:0::1".toList 5986 "wsman".toList = "https://[2001:db8::1]:5986/wsman".toList := by decide +kernel
example : createEndpoint (fun _ => none) false "srv.example.com".toList 80 "a/b".toList =
    "http://srv.example.com:80/a/b".toList := by decide +kernel

end Verif
