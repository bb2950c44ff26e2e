import Verif.Jwt.RawText
import Verif.Props.Json
import Verif.Props.RawJwt

/-!
# C48: the payload as JSON
-/

namespace Tink
namespace Props
open Jwt Json JsonUtil Spec

variable {F : Type}

theorem fromJson_jsonPayload {env : JsonEnv F} (hl : LawfulFloats env.floats) {t : RawJwt F}
    {text : PyStr} (hd : t.jsonPayload env = .ok text) (hv : ValidObjects (.dict t.payload))
    (hc : Clean (.dict t.payload)) (hp : ValidPayload env.floats t.payload) :
    RawJwt.fromJson env t.typeHeader text = .ok t := by
  unfold RawJwt.fromJson
  rw [C49_round_trip env hl _ text hd hc.1 hv hc.2]
  exact init_of hp

/-- The text of the payload of a created token, read back, gives the token; if it has text at all, and
the strings in it that are checked when reading are valid Unicode. -/
theorem C48_created (env : JsonEnv F) (hl : LawfulFloats env.floats) (a : RawJwtArgs F) (t : RawJwt F)
    (h : newRawJwt env a = .ok t) (hv : ValidObjects (.dict t.payload)) (text : PyStr)
    (hd : t.jsonPayload env = .ok text) : RawJwt.fromJson env t.typeHeader text = .ok t := by
  obtain ⟨_, _, _, hvalid⟩ := newRawJwt_ok h
  exact fromJson_jsonPayload hl hd hv (created_clean hl h hv) hvalid

/-- The same of a token that was read from a text of valid Unicode, whatever its strings. -/
theorem C48_parsed (env : JsonEnv F) (hl : LawfulFloats env.floats) (h : Option (JVal F)) (t : RawJwt F)
    (text₀ : PyStr) (h₀ : RawJwt.fromJson env h text₀ = .ok t) (ht : ValidText text₀) (text : PyStr)
    (hd : t.jsonPayload env = .ok text) : RawJwt.fromJson env t.typeHeader text = .ok t := by
  unfold RawJwt.fromJson at h₀
  cases hj : jsonLoads env text₀ with
  | error e => rw [hj] at h₀; cases h₀
  | ok v =>
    rw [hj] at h₀
    obtain ⟨rfl, _, h3⟩ := init_ok h₀
    exact fromJson_jsonPayload hl hd (C50_objects env text₀ _ hj) (jsonLoads_clean ht hj) h3

/-- Writing fails only for values nested too deeply and for integers with too many digits. -/
theorem C48_error (env : JsonEnv F) (t : RawJwt F) (e : Exc) (h : t.jsonPayload env = .error e) :
    e = .recursionError ∨ (e = .valueError ∧ env.maxDigits ≠ none) :=
  C49_dumps_error env _ e h

/-- A token can be created from a string that is not valid Unicode; the text of its payload is then
rejected. -/
theorem C48_surrogate_violated : ∃ (a : RawJwtArgs Int) (t : RawJwt Int) (text : PyStr),
    newRawJwt ToyJson.env a = .ok t ∧ t.jsonPayload ToyJson.env = .ok text ∧
      RawJwt.fromJson ToyJson.env t.typeHeader text = .error .jwtInvalidError :=
  ⟨{ issuer := some [0xD800], withoutExpiration := true }, _, _, rfl, rfl, rfl⟩

/-! ## Examples -/

example : ∃ t text, newRawJwt ToyJson.env toyArgs = .ok t ∧ t.jsonPayload ToyJson.env = .ok text ∧
    text = py! "{\"iss\":\"me\",\"jti\":\"\",\"aud\":[\"a\",\"b\"],\"exp\":1700000000,\"nbf\":1600000000,\"x\":[1,{\"y\":null}],\"admin\":true}" ∧
    RawJwt.fromJson ToyJson.env t.typeHeader text = .ok t :=
  ⟨_, _, rfl, rfl, rfl, rfl⟩

/-- A text with an unpaired surrogate deep inside is read, written and read again. -/
example : ∃ t text, RawJwt.fromJson ToyJson.env none (py! "{\"a\":[[\"\\ud800\"]]}") = .ok t ∧
    t.jsonPayload ToyJson.env = .ok text ∧ ValidText (py! "{\"a\":[[\"\\ud800\"]]}") :=
  ⟨_, _, rfl, rfl, fun c hc => by revert c; decide +kernel⟩

end Props
end Tink
