/-
The sample vault of the repository (assets/onepassword_data/default), with the real primitives.
-/
import Verif.Go.Crypto
import Verif.Model.Session

namespace OnePass
namespace Sample

set_option maxRecDepth 20000 in
/-- default/profile.js, byte for byte. -/
def profileJs : Bytes := b!"var profile={\"lastUpdatedBy\":\"Dropbox\",\"updatedAt\":1370323483,\"profileName\":\"default\",\"salt\":\"P0pOMMN6Ow5wIKOOSsaSQg==\",\"masterKey\":\"b3BkYXRhMDEAAQAAAAAAACN8JuE76yN6hbjqzEvd0RGnu3vufPcfAZ35JoyzdR1WPRvr8DMefe9MJu65DmHSwjObPC0jznXpafJQob6CNzKCNoeVC+GXIvLckvAuYUNSwILQQ1jEIcHdyQ0H2MbJ+0YlWEbvlQ8UVH5bcrMqDmTPPSRkbUG3/dV1NKHdgI0V6N/kKZ737oo+kj3ChJZQTKywvmR6RgB5et5stBaUwutNQbZ0znYtZumIlf3pjdqGK4RyCHSwmwgLUO+VFLTqDjoZ9dUcy4hQzSZiPlba3vK8vGJRlN0Qf2Y6dUj5kYAwdYdOzE/Ji3hbTNVsPOm8sjzPcPGQj8haW5UgzSDZ0mo7+ymsKJwSYjAsgvawh31WY2m5j7VR+50ERDTEyxxQ3LW7WgetAxX9l0LX0O3Jue1oW/p2l44ij9qiN9rkFScx\",\"iterations\":50000,\"uuid\":\"2B894A18997C4638BACC55F2D56A4890\",\"overviewKey\":\"b3BkYXRhMDFAAAAAAAAAAIy1hZwIGeiLn4mLE1R8lEwIOye95GEyfZcPKlyXkkb0IBTfCXM+aDxjD7hOliuTM/YMIqxK+firVvW3c5cp2QMgvQHpDW2AsAQpBqcgBgRUCSP+THMVg15ZeR9lI77mHBpTQ70D+bchvkSmw3hoEGot7YcnQCATbouhMXIMO52D\",\"createdAt\":1373753414};"

set_option maxRecDepth 20000 in
/-- default/band_6.js, byte for byte. -/
def band6Js : Bytes := b!"ld({\n  \"67979020CCA54120BAFA2742C3F23F2B\": {\n    \"category\": \"108\",\n    \"created\": 1370129714,\n    \"d\": \"b3BkYXRhMDHAAAAAAAAAALKcrmbSK3N10mz8SnKVCpdQS2cYLptNG47UL3OT3kJ3HFTlnEZUlC+RgPGWt1ZTSiC+vGBFMIltHU3o1sJ/LxO7k8nSuX3Iky4BadclqAur8ux/kH2TyfBdWTu+sRSskE5tMb3SB0z3Yfv+w5nj3c7amD2eClrxwFyjW/Jv1reHAI4p3HD9bbDxVlVxHFuqsVlwsb8fiAdIXmhtf1ZQv8XM+Vd1KBSHaKC/nVcwyG/ZS0r4CyGdiQUq2bEvdERssRR1nzjT+g/sFseD8q4jrXVXhezXQdstl81GM3WSvVSm5lT/z6qMbCUrcPW7AZsFIcAMqtRHexBvKwfjpn3Tj5M=\",\n    \"hmac\": \"AVY2ZVXViuYtgfnSKShK/ZbbVn6T9SMfugz7F89Kd2Q=\",\n    \"k\": \"NwsqfULiH/XRz0LPCNJ5u1Kv4Onmqmeu1Ye4UKmipo6YspWDQ9zswlSWqgtjhKVzsv+eq9G6qQftYwG4cHbid18RdZksQWqDCrnE7arx9zwR9mYdxB9Eymb/nSU4o03D9pkAk/niM23vS7qkbbap8A==\",\n    \"o\": \"b3BkYXRhMDE8AAAAAAAAAPnQNt3DIzXvm/rjmdk/NHmfWLgOs+/hvM6nFutXkkSPcWK2Xl9NAzyoMV86XJviJF2wYd74eJFXZgFDgflquGnrK6xQifFqMj6zxVF4r6EACcNtzHgsrv054MFtKKiZm073KEQStDhnI2dwtRWQQjM=\",\n    \"tx\": 1373753420,\n    \"updated\": 1370129765,\n    \"uuid\": \"67979020CCA54120BAFA2742C3F23F2B\"\n  }\n});"

set_option maxRecDepth 20000 in
/-- default/band_7.js, byte for byte. -/
def band7Js : Bytes := b!"ld({\n  \"72366D161D9E43D98E58EB801DAD1EF8\": {\n    \"category\": \"001\",\n    \"created\": 1325483951,\n    \"d\": \"b3BkYXRhMDEbAQAAAAAAAHuKL7sJ20Yz8sgns/j9LqJDQy9lms3XaDZBwYt8bmEKK3t2nQxNvUQVqxISzoRj/nX/axFvqcEOSOzZhxN7CvszP9eBPmTS2zTZvz4iu4NQ/LqXlUJ6wpf4HTjnhaqqcunas49y9ahK9xSICfo1mbmVyUI2raUoxMIQCzthfS/Wqr6J2uk6I0RraEO/eJBvOxO+buXfDQ5Bt9WoZREy+o0qcGEUs6kIMcTG5PmbOWV0DH3/Y29ggzzrUiaAbmvcu88e6warGI5Ii9gnW9iLt3AIFtIvuZQNhwyDDH7e8LPYOdusu7MfQGannWoc4QGTLnUkZrIozo3WTsoCEFv1Q9sYjyucSaR2Q2BEHVwiKzPsu4YaUADQSl65IgyfMRhjpU3qNsIxtu1gLjjRWwx8YV7BTOOSgz5MMwesZrMX5WcsulOgH6/TRH6mQtbi9d/kTw==\",\n    \"hmac\": \"A3fS6NKkoS6T1vTDvd+mVUWweXeNnWdPYb+T81WfgwY=\",\n    \"k\": \"du1CJ4AKSNBWoORyfTICsCJ9ltR/Jdy95IwZBXPsxD2fs+LmzTrFPB6sXeoB8Or7aaISaH6fzf5PJfhwIYs0WwtiJNMsHQOJ0aijvDMmpFvE1EHle+E/V9aPK0f3nws5opwfcUAxQVKAoZCg6VFXng==\",\n    \"o\": \"b3BkYXRhMDGTAAAAAAAAAExAg52C/fG2dWHCUgSx+8mg6eRc4M2Z0Qb9+ievEU6lNLuHqQQAEnJhe8zJTNfUm7bKMA9aqNrR9EpObuMR1j+uN2pIFJmD1pDtHsemM1vnSr5tZ5jUYPjOC7pWJyvC16ap4zBPfDMcrUjCVjgnZlppyZ3cJuxwVJNFRHUqShpX7oetObnVfOeixiUsvdSFjEGC9dbzvnQHrcv4G+nwmHtSLI9vN78SCWkX8I8DKZd4QZt/94Am9OWArX3r+s3Yvq4HTvNto/kC1q+a3k55AJw=\",\n    \"tx\": 1373753420,\n    \"updated\": 1325483951,\n    \"uuid\": \"72366D161D9E43D98E58EB801DAD1EF8\"\n  }\n});"

/-- The vault's profile and two of its band files. -/
def disk : Disk :=
  { fs := [([b!"v"], .dir), ([b!"v", b!"default"], .dir), ([b!"v", b!"default", b!"profile.js"], .file profileJs false),
      ([b!"v", b!"default", b!"band_6.js"], .file band6Js false), ([b!"v", b!"default", b!"band_7.js"], .file band7Js false)],
    cwd := [] }

def env : Env := { Env.toy with crypto := Crypto.std }

def salt : Bytes := [63, 74, 78, 48, 195, 122, 59, 14, 112, 32, 163, 142, 74, 198, 146, 66]

/-- PBKDF2-HMAC-SHA512 of the password `freddy` with the salt of the profile, 50000 iterations, 64 bytes. -/
def derived : Bytes := [99, 176, 117, 222, 133, 137, 73, 85, 157, 79, 170, 157, 52, 139, 241, 11, 218, 160, 229, 103, 173, 148, 61, 120, 3, 242, 41, 28, 147, 66, 170, 170, 255, 58, 180, 38, 206, 85, 191, 9, 123, 37, 43, 63, 45, 241, 196, 186, 67, 18, 166, 150, 1, 128, 132, 77, 122, 98, 91, 192, 171, 64, 195, 94]

/-- What a finished run gives. -/
def done {α : Type} : Out α → Option α
  | .ret a => some a
  | _ => none

theorem of_done {α : Type} {m : Out α} {a : α} (h : done m = some a) : m = .ret a := by
  cases m <;> simp_all [done]

/-- The session after the vault has been validated. -/
def validated : Session := ((done (Session.init.validate disk b!"/v")).map (·.2)).getD Session.init

/-- `Unlock` after `DerivedKeys` (vaultfacade.go:64-80). -/
def open' (E : Env) (s : Session) (dk dm : Bytes) : Out (Except Err Unit × Session) := do
    match ← Key.masterKeys E s.profile dk dm with
    | .error _ => pure (.error .invalidPass, s)
    | .ok (masterK, masterM) =>
      match ← Key.overviewKeys E s.profile dk dm with
      | .error _ => pure (.error .invalidPass, s)
      | .ok (overK, overM) =>
        let keys : Keys :=
          { derivedKey := dk, derivedMac := dm, masterKey := masterK, masterMac := masterM,
            overviewKey := overK, overviewMac := overM }
        let s' ← Session.decodeItems E .doc disk b!"/v" keys { s with keys := some keys }
        pure (.ok (), s')

/-- The two items as the vault's owner sees them. -/
def items : List Item :=
  [{ category := ⟨b!"108", b!"SSN"⟩, created := 1370129714, notes := [], title := b!"Social Security", trashed := false,
     sections := some [⟨[], some [⟨b!"Name", b!"Wendy Appleseed"⟩, ⟨b!"Number", b!"555-55-1234"⟩]⟩],
     uid := b!"67979020CCA54120BAFA2742C3F23F2B", url := [], updated := 1370129765 },
   { category := ⟨b!"001", b!"Login"⟩, created := 1325483951, notes := [], title := b!"Last.fm", trashed := false,
     sections := some [⟨[], some [⟨b!"Username", b!"WendyAppleseed"⟩, ⟨b!"Password", b!"dowg1af5kam7oak9at"⟩,
       ⟨b!"Login", b!"Come on in"⟩]⟩],
     uid := b!"72366D161D9E43D98E58EB801DAD1EF8", url := b!"https://www.last.fm/login", updated := 1325483951 }]

def isOk : Except Err Unit → Bool
  | .ok _ => true
  | .error _ => false

set_option maxRecDepth 20000 in
theorem validate_ok : (done (Session.init.validate disk b!"/v")).map (fun r => isOk r.1) = some true := by decide +kernel

theorem open_ok : (done (open' env validated (derived.take 32) (derived.drop 32))).map (fun r => (isOk r.1, r.2.items)) =
    some (true, some items) := by decide +kernel

theorem iterations_ok : done (validated.profile.getIterations env) = some 50000 := by decide +kernel
theorem salt_ok : (done validated.profile.getSalt).map (fun t => ((B64.decodeString t).2, (B64.decodeString t).1.data)) =
    some (false, salt) := by decide +kernel

theorem derivedKeys_of (E : Env) (p : Profile) (pass t d : Bytes) (it : Int) (h1 : p.getIterations E = .ret it)
    (h2 : p.getSalt = .ret t) (h3 : (B64.decodeString t).2 = false)
    (h4 : E.crypto.pbkdf2 pass (B64.decodeString t).1.data it 64 = d) :
    Key.derivedKeys E p pass = .ret (.ok (d.take 32, d.drop 32)) := by
  have hl : d.length = 64 := by rw [← h4]; exact E.crypto.pbkdf2_len _ _ _ _
  unfold Key.derivedKeys
  rw [h1, Out.ret_bind, h2, Out.ret_bind]
  simp only [h3, h4, Bool.false_eq_true, if_false]
  simp [Slice.sub, Slice.suffix, Slice.ofBytes, Slice.data, Slice.cap, hl]
  exact List.take_of_length_le (by simp [hl])

theorem unlock_of (E : Env) (s : Session) (pass dk dm : Bytes)
    (h : Key.derivedKeys E s.profile pass = .ret (.ok (dk, dm))) :
    s.unlock E .doc disk b!"/v" pass = open' E s dk dm := by
  unfold Session.unlock open'
  rw [h]
  rfl

theorem unlock_eq (h : Crypto.std.pbkdf2 b!"freddy" salt 50000 64 = derived) :
    validated.unlock env .doc disk b!"/v" b!"freddy" = open' env validated (derived.take 32) (derived.drop 32) := by
  refine unlock_of env validated _ _ _ ?_
  have h1 := of_done iterations_ok
  cases h2 : validated.profile.getSalt with
  | ret t =>
    have h3 := salt_ok
    rw [h2] at h3
    simp only [done, Option.map_some, Option.some.injEq, Prod.mk.injEq] at h3
    exact derivedKeys_of env _ _ t derived 50000 h1 h2 h3.1 (by rw [h3.2]; exact h)
  | panic => have h3 := salt_ok; rw [h2] at h3; simp [done] at h3
  | fatal => have h3 := salt_ok; rw [h2] at h3; simp [done] at h3

/-- Opening the repository's own sample vault with its password shows what is in it. The derived key is a hypothesis: the 50000
iterations of PBKDF2 were computed outside; everything else (the profile, both key blobs, item keys, overviews, details: base64,
AES, HMAC, SHA-512, JSON) is evaluated by the kernel. -/
theorem sample_vault (h : Crypto.std.pbkdf2 b!"freddy" salt 50000 64 = derived) :
    ∃ s s' : Session, Session.init.validate disk b!"/v" = .ret (.ok (), s) ∧
      s.unlock env .doc disk b!"/v" b!"freddy" = .ret (.ok (), s') ∧ s'.items = some items := by
  cases hv : Session.init.validate disk b!"/v" with
  | ret r =>
    obtain ⟨e, s⟩ := r
    have h1 := validate_ok
    rw [hv] at h1
    have hs : validated = s := by simp [validated, hv, done]
    cases e with
    | error e => simp [done, isOk] at h1
    | ok u =>
      have h2 := open_ok
      rw [← unlock_eq h, hs] at h2
      cases hu : s.unlock env .doc disk b!"/v" b!"freddy" with
      | ret q =>
        obtain ⟨e', s'⟩ := q
        rw [hu] at h2
        simp only [done, Option.map_some, Option.some.injEq, Prod.mk.injEq] at h2
        cases e' with
        | error e => simp [isOk] at h2
        | ok u' => exact ⟨s, s', rfl, by rw [hu], h2.2⟩
      | panic => rw [hu] at h2; simp [done] at h2
      | fatal => rw [hu] at h2; simp [done] at h2
  | panic => have h1 := validate_ok; rw [hv] at h1; simp [done] at h1
  | fatal => have h1 := validate_ok; rw [hv] at h1; simp [done] at h1

end Sample
end OnePass
