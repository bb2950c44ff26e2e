import Verif.Cli.JwtLemmas
import Verif.Props.TokenOrder
import Verif.Props.CliExamples

/-!
# C86: the example programs for JWTs
-/

namespace Tink.Props
open Spec Cli Jwt Jwk

section
variable {P C F κ : Type} [DecidableEq C]
variable {L : Jwt.Library F P C} {isInst : P → C → Bool} {E : JsonFormatEnv F}

/-! ## Every run -/

/-- C86.  `jwt_sign_cli.py` writes the token file last, and no other file: with status 0 it holds a token that the
keyset has signed, for the given audience and to expire 100 seconds after the run.  In every other case the status is
1, and unless the file could be opened but not written completely, no file has changed. -/
theorem C86_sign (hl : LawfulLibrary L) (hc : LawfulClasses isInst L) (os : Os) (seed : Seed) (now : Int)
    (keysetPath : Path) (audience : PyStr) (tokenPath : Path) (w : World κ) :
    EndsByWriting os tokenPath (fun o => ∃ h token, KeysetFile E os w.files keysetPath h ∧
        TokenFor L isInst h seed now audience token ∧ utf8Encode token = .ok o)
      w (jwtSignCli L isInst E os seed now keysetPath audience tokenPath w) := by
  refine ends_congr ((congrArg (EndsByWriting _ _ _ w) (jwtRegistered_ok hl hc _ w)).mpr
      (ends_step (step_keyset E os keysetPath _ w) fun h _ => ends_step (step_try _ _ w) fun p hp =>
        ends_step (step_lift _ _ w) fun d _ => ends_step (step_lift _ _ w) fun raw _ =>
        ends_step (step_lift _ _ w) fun token ht => by
          obtain ⟨_, _, _, hcomp⟩ := sign_compact hl hc hp ht
          obtain ⟨b, hb, _⟩ := textChar_text (compact_textChar hcomp)
          exact ends_writeText hb rfl)) fun o => ?_
  constructor
  · rintro ⟨h, h1, p, h2, d, h3, raw, h4, token, h5, h6⟩
    obtain ⟨h7, rfl⟩ := (add_ok_iff _ _ _).1 h3
    exact ⟨h, token, h1, ⟨p, raw, h2, h7, h4, h5⟩, h6⟩
  · rintro ⟨h, token, h1, ⟨p, raw, h2, h3, h4, h5⟩, h6⟩
    exact ⟨h, h1, p, h2, _, (add_ok_iff _ _ _).2 ⟨h3, rfl⟩, raw, h4, token, h5, h6⟩

/-- C86.  `jwt_generate_public_jwk_set.py` writes its output file last, and no other file: with status 0 it holds the
JWK set of the public keyset. -/
theorem C86_generate (hl : LawfulLibrary L) (hc : LawfulClasses isInst L) (hf : LawfulFloats L.env.json.floats)
    (os : Os) (keysetPath jwkSetPath : Path) (w : World κ) :
    EndsByWriting os jwkSetPath (fun o => ∃ h text, PublicKeysetFile E os w.files keysetPath h ∧
        fromPublicKeysetHandle L.env.json h = .ok text ∧ utf8Encode text = .ok o)
      w (jwkSetCli L isInst E os keysetPath jwkSetPath w) := by
  refine ends_congr ((congrArg (EndsByWriting _ _ _ w) (jwtRegistered_ok hl hc _ w)).mpr
      (ends_step (step_text os keysetPath _ w) fun t _ => ends_step (step_try _ _ w) fun h _ =>
        ends_step (step_lift _ _ w) fun text ht => by
          obtain ⟨b, hb, _⟩ := textChar_text (jwkSet_textChar hf ht)
          exact ends_writeText hb rfl)) fun o => ?_
  constructor
  · rintro ⟨t, h1, h, h2, text, h3, h4⟩
    exact ⟨h, text, ⟨t, h1, h2⟩, h3, h4⟩
  · rintro ⟨h, text, ⟨t, h1, h2⟩, h3, h4⟩
    exact ⟨t, h1, h, h2, text, h3, h4⟩

/-- C86.  `jwt_verify_cli.py` changes nothing.  Its status is 0 if a JWK set file is given and can be imported, the
token file can be read, and the imported keyset accepts exactly its text as a token at the time of the run, for the
given audience.  Otherwise its status is 1. -/
theorem C86_verify (hl : LawfulLibrary L) (hc : LawfulClasses isInst L) (hu : LawfulUpper L.env.upper) (os : Os)
    (draws : List UInt32) (clock : Int) (jwkSetPath : Option Path) (audience : PyStr) (tokenPath : Path)
    (w : World κ) :
    OnlyChecks (∃ path text h token, jwkSetPath = some path ∧ TextFile os w.files path text ∧
        toPublicKeysetHandle L.env.json draws text = some (.ok h) ∧ TextFile os w.files tokenPath token ∧
        Accepts L isInst h clock audience token)
      w (jwtVerifyCli L isInst os draws clock jwkSetPath audience tokenPath w) := by
  have import_iff : ∀ text h, importJwkSet L.env.json draws text = .ok h ↔
      toPublicKeysetHandle L.env.json draws text = some (.ok h) := by
    intro text h
    unfold importJwkSet
    cases toPublicKeysetHandle L.env.json draws text with
    | none => simp
    | some x => simp
  refine checks_congr ((congrArg (OnlyChecks _ w) (jwtRegistered_ok hl hc _ w)).mpr
      (checks_step (step_path jwkSetPath _ w) fun path _ => checks_step (step_text os path _ w) fun text _ =>
        checks_step (step_try _ _ w) fun h _ => checks_step (step_try _ _ w) fun p _ =>
        checks_step (step_text os tokenPath _ w) fun token _ => checks_step (step_lift _ _ w) fun v _ =>
        checks_step (step_try _ _ w) fun _ _ => checks_done rfl)) ?_
  constructor
  · rintro ⟨path, h1, text, h2, h, h3, p, h4, token, h5, v, h6, u, h7, _⟩
    rw [newValidator_audience] at h6; cases h6
    obtain ⟨a, ha⟩ := (verifyToken_iff hl hc hu h4 clock token rfl u).1 h7
    exact ⟨path, text, h, token, h1, h2, (import_iff _ _).1 h3, h5, p, _, a, h4, newValidator_audience audience, ha⟩
  · rintro ⟨path, text, h, token, h1, h2, h3, h5, p, v, a, h4, h6, ha⟩
    rw [newValidator_audience] at h6; cases h6
    exact ⟨path, h1, text, h2, h, (import_iff _ _).2 h3, p, h4, token, h5, _, newValidator_audience audience, (),
      (verifyToken_iff hl hc hu h4 clock token rfl ()).2 ⟨a, ha⟩, trivial⟩

/-! ## What the files mean -/

/-- C86.  The token file of a run with status 0 holds the token alone: three parts of base64url characters with dots
between them, and no line end. -/
theorem C86_token_file (hl : LawfulLibrary L) (hc : LawfulClasses isInst L) {os : Os} {seed : Seed} {now : Int}
    {keysetPath : Path} {audience : PyStr} {tokenPath : Path} {w : World κ}
    (h0 : exitStatus (jwtSignCli L isInst E os seed now keysetPath audience tokenPath w) = 0) :
    ∃ header payload signature : Bytes,
      Updated (os.file tokenPath) (header ++ 46 :: payload ++ 46 :: signature) w.files
        (jwtSignCli L isInst E os seed now keysetPath audience tokenPath w).2.files ∧
      ∀ c ∈ header ++ payload ++ signature, UrlChar c := by
  obtain ⟨b, ⟨h, token, _, ⟨p, raw, h2, _, _, h5⟩, hb⟩, hu⟩ := ends_zero (C86_sign hl hc os seed now _ _ _ w) h0
  obtain ⟨header, payload, signature, hcomp⟩ := sign_compact hl hc h2 h5
  have hascii : ∀ c ∈ header ++ 46 :: payload ++ 46 :: signature, c.toNat < 128 := by
    intro c hm
    simp only [List.append_assoc, List.mem_append, List.mem_cons, List.cons_append] at hm
    rcases hm with hm | rfl | hm | rfl | hm
    · exact UrlChar.ascii (hcomp.header c hm)
    · decide
    · exact UrlChar.ascii (hcomp.payload c hm)
    · decide
    · exact UrlChar.ascii (hcomp.signature c hm)
  rw [hcomp.form, utf8Encode_ascii _ hascii, Except.ok.injEq] at hb
  subst hb
  refine ⟨header, payload, signature, hu, ?_⟩
  intro c hm
  simp only [List.mem_append] at hm
  rcases hm with (hm | hm) | hm
  · exact hcomp.header c hm
  · exact hcomp.payload c hm
  · exact hcomp.signature c hm

/-- C86.  With status 0 of `jwt_verify_cli.py`, too, the token file is such a text: with a line end added to it the
program fails. -/
theorem C86_verify_exact (hl : LawfulLibrary L) (hc : LawfulClasses isInst L) (hu : LawfulUpper L.env.upper) {os : Os}
    {draws : List UInt32} {clock : Int} {jwkSetPath : Option Path} {audience : PyStr} {tokenPath : Path}
    {w : World κ}
    (h0 : exitStatus (jwtVerifyCli L isInst os draws clock jwkSetPath audience tokenPath w) = 0) :
    ∃ token header payload signature, TextFile os w.files tokenPath token ∧
      Compact token header payload signature := by
  rcases (C86_verify hl hc hu os draws clock jwkSetPath audience tokenPath w).status with
    ⟨_, path, text, h, token, _, _, _, h4, p, v, a, h5, _, h7⟩ | ⟨h1, _⟩
  · obtain ⟨kps, H⟩ := obtained_verify hl hc h5
    obtain ⟨_, _, _, _, _, _, _, _, _, _, header, payload, signature, _, _, hcomp, _⟩ :=
      C82_signature_accepted H (jwtManagers hl).verify hu h7
    exact ⟨token, header, payload, signature, h4, hcomp⟩
  · rw [h0] at h1; cases h1

/-- The keyset `h'` with the public keys accepts what the keyset `h` has signed at most 99 seconds ago. -/
theorem C86_accepts (hl : LawfulLibrary L) (hc : LawfulClasses isInst L) (hf : LawfulFloats L.env.json.floats)
    (hu : LawfulUpper L.env.upper)
    (hcc : ∀ url data verifier, (L.ccVerify url).primitive data = .ok verifier → TinkErrorsOnly verifier.verify)
    {h h' : KeysetHandle} {seed : Seed} {now clock : Int} {audience token : PyStr} (ha : ValidText audience)
    (ht : TokenFor L isInst h seed now audience token)
    (hk : ∀ k ∈ h.keyset.key, IsPrimaryKey h.keyset k →
      ∃ k' ∈ h'.keyset.key, Enabled k' ∧ PublicKeyOf L k k')
    {p' : P} (hp' : h'.primitive isInst (jwtRegistry L isInst) L.verifyClass = .ok p')
    (hr : Representable ⟨clock, utc⟩ 0) (hclock : clock ≤ now + 99000000) :
    ∃ a, (L.verify.view p').verifyAndDecode clock token (audienceValidator audience) = .ok a := by
  obtain ⟨p, raw, h2, h3, h4, h5⟩ := ht
  obtain ⟨s, rfl, h6, h7, h8⟩ := program_token h4
  obtain ⟨kps, H⟩ := obtained_sign hl hc h2
  obtain ⟨kps', H'⟩ := obtained_verify hl hc hp'
  obtain ⟨k, o, hq, hm, hprim⟩ := sign_primary H h5
  obtain ⟨k', hm', hen, hpub⟩ := hk k hm hprim
  obtain ⟨alg, kid, g1, g2⟩ := hpub.same
  refine ⟨_, C41_signature_any H (jwtManagers hl).sign H' (jwtManagers hl).verify hf hu hcc hq hm' hen hpub.keyId
    hpub.outputPrefixType g1 g2 (.inl rfl) hpub.signatures h4 (program_valid ha s) (by simp) h5
    ((program_validate _ _ clock audience audience h6 h7).2 ⟨hr, ?_, rfl, rfl⟩)⟩
  have := h8.near.2
  have e : moment ⟨now + 100000000, utc⟩ = now + 100000000 := by unfold moment utc; simp
  rw [e] at this
  omega

/-- C86.  Running the three programs one after the other: a token is signed, the JWK set of the public keyset is
generated, and both runs end with status 0.  Then at most 99 seconds after the token was signed it is verified with
status 0, for the same audience.

The public keyset file belongs to the private one, gives a verifier, and is not the token file; token and JWK set are
different files.  The remaining hypotheses say that the keys are not so many and large that serialization fails, and
that enough different key ids are drawn. -/
theorem C86_chain (hl : LawfulLibrary L) (hc : LawfulClasses isInst L) (hf : LawfulFloats L.env.json.floats)
    (hu : LawfulUpper L.env.upper)
    (hcc : ∀ url data verifier, (L.ccVerify url).primitive data = .ok verifier → TinkErrorsOnly verifier.verify)
    (hsame : SameVerifiers L.ccVerify L.ccVerify) (htakes : TakesKeys L.ccVerify L.ccVerify)
    {os os' os'' : Os} (hos : SameFiles os os') (hos' : SameFiles os os'')
    {privatePath publicPath tokenPath jwkSetPath : Path} {seed : Seed} {now clock : Int} {audience : PyStr}
    (ha : ValidText audience) {w : World κ} {h h' : KeysetHandle}
    (hprivate : KeysetFile E os w.files privatePath h) (hpublic : PublicKeysetFile E os w.files publicPath h')
    (hk : ∀ k ∈ h.keyset.key, IsPrimaryKey h.keyset k →
      ∃ k' ∈ h'.keyset.key, Enabled k' ∧ PublicKeyOf L k k')
    {p' : P} (hp' : h'.primitive isInst (jwtRegistry L isInst) L.verifyClass = .ok p')
    (hne : os.file publicPath ≠ os.file tokenPath) (hne' : os.file tokenPath ≠ os.file jwkSetPath)
    (h0 : exitStatus (jwtSignCli L isInst E os seed now privatePath audience tokenPath w) = 0) :
    let w1 := (jwtSignCli L isInst E os seed now privatePath audience tokenPath w).2
    exitStatus (jwkSetCli L isInst E os' publicPath jwkSetPath w1) = 0 →
    os'.readable publicPath = true → os''.readable tokenPath = true → os''.readable jwkSetPath = true →
    ∀ m, (∀ k ∈ h'.keyset.key, Enabled k → ∀ alg a b kid, PublicKey k.data alg a b kid →
      a.length + b.length + 4 * ((exportedKid k kid).getD []).length ≤ m) →
    h'.keyset.key.length * (m + 1000) < 2147483648 →
    ∀ draws ids : List UInt32, ids.Nodup → (∀ x ∈ ids, x ∈ draws) → h'.keyset.key.length ≤ ids.length →
    Representable ⟨clock, utc⟩ 0 → clock ≤ now + 99000000 →
    let w2 := (jwkSetCli L isInst E os' publicPath jwkSetPath w1).2
    exitStatus (jwtVerifyCli L isInst os'' draws clock (some jwkSetPath) audience tokenPath w2) = 0 := by
  intro w1 h1 hr hr1 hr2 m hm hlen draws ids hi hd hn hrep hclock w2
  obtain ⟨b, ⟨h2, token, k1, k2, hb⟩, hu1⟩ := ends_zero (C86_sign hl hc os seed now _ _ _ w) h0
  cases keysetFile_unique hprivate k1
  obtain ⟨b', ⟨h3, text, ⟨t, k3, k4⟩, k5, hb'⟩, hu2⟩ := ends_zero (C86_generate hl hc hf os' _ _ w1) h1
  obtain ⟨t', k3', k4'⟩ := hpublic
  cases textFile_unique (textFile_carry hos k3' hr (hu1.2 _ hne)) k3
  rw [k4] at k4'; cases k4'
  have htok : TextFile os'' w2.files tokenPath token := by
    obtain ⟨p, raw, g2, _, _, g5⟩ := k2
    obtain ⟨_, _, _, hcomp⟩ := sign_compact hl hc g2 g5
    obtain ⟨b2, e1, e2⟩ := textChar_text (compact_textChar hcomp)
    rw [hb] at e1; cases e1
    refine ⟨b, ⟨hr1, ?_⟩, e2⟩
    rw [hos', hu2.2 _ (by rw [hos]; exact hne')]
    exact hu1.1
  have hjwk : TextFile os'' w2.files jwkSetPath text :=
    textFile_written (os := os') (fun path => by rw [hos', hos]) (jwkSet_textChar hf k5) hb' hu2 hr2
  obtain ⟨kps', H'⟩ := obtained_verify hl hc hp'
  have hnonempty : (h'.keyset.key.filter fun k => Enabled k) ≠ [] := by
    obtain ⟨p, raw, g2, _, _, g5⟩ := k2
    obtain ⟨kps, H⟩ := obtained_sign hl hc g2
    obtain ⟨k, o, _, hmem, hprim⟩ := sign_primary H g5
    obtain ⟨k', hm', hen, _⟩ := hk k hmem hprim
    exact List.ne_nil_of_mem (List.mem_filter.2 ⟨hm', by simpa using hen⟩)
  obtain ⟨h4, k6⟩ := C51_import_succeeds hf k5 hnonempty hm hlen hi hd hn
  obtain ⟨r', kps4, p4, g1, H4⟩ := C85_imported_works hl hc hf H' (jwtManagers hl).verify k5 k6 htakes
  have er : r' = jwtRegistry L isInst := by unfold jwtRegistry; rw [g1]
  subst er
  obtain ⟨a, hacc⟩ := C86_accepts hl hc hf hu hcc ha k2 hk hp' hrep hclock
  have := C85_accepted_too hf hu H' (jwtManagers hl).verify H4 (jwtManagers hl).verify k5 k6 hsame hcc hacc
  rcases (C86_verify hl hc hu os'' draws clock (some jwkSetPath) audience tokenPath w2).status with h | ⟨_, h⟩
  · exact h.1
  · exact absurd ⟨jwkSetPath, text, h4, token, rfl, hjwk, k6, htok, p4, _, a, H4.primitive,
      newValidator_audience audience, this⟩ h

/-- C86.  The other way round: if a token file of `jwt_sign_cli.py` is verified with status 0, with whatever JWK set,
then it was signed for this audience and has not expired.  The seconds of the expiration are rounded, so that it can
come up to a second late; until the year 2514 it does not come late. -/
theorem C86_verified (hl : LawfulLibrary L) (hc : LawfulClasses isInst L) (hf : LawfulFloats L.env.json.floats)
    (hu : LawfulUpper L.env.upper) {os os' : Os} (hos : SameFiles os os')
    {keysetPath tokenPath : Path} {jwkSetPath : Option Path} {seed : Seed} {now clock : Int}
    {audience audience' : PyStr} (ha : ValidText audience) {w w' : World κ} {draws : List UInt32}
    (h0 : exitStatus (jwtSignCli L isInst E os seed now keysetPath audience tokenPath w) = 0)
    (ht : w'.files (os.file tokenPath) =
      (jwtSignCli L isInst E os seed now keysetPath audience tokenPath w).2.files (os.file tokenPath))
    (h1 : exitStatus (jwtVerifyCli L isInst os' draws clock jwkSetPath audience' tokenPath w') = 0) :
    audience' = audience ∧ clock < now + 101000000 ∧
      (0 ≤ now + 100000000 → now + 100000000 < 2 ^ 34 * 1000000 → clock < now + 100000000) := by
  obtain ⟨b, ⟨h2, token, _, ⟨p, raw, g2, g3, g4, g5⟩, hb⟩, hu1⟩ := ends_zero (C86_sign hl hc os seed now _ _ _ w) h0
  obtain ⟨s, rfl, g6, g7, g8⟩ := program_token g4
  obtain ⟨kps, H⟩ := obtained_sign hl hc g2
  obtain ⟨k, o, hq, _⟩ := sign_primary H g5
  obtain ⟨_, _, _, _, _, _, _, header, payload, signature, _, _, hcomp, _, _, hpay, _⟩ :=
    C82_signature_form H (jwtManagers hl).sign hf hq g4 (program_valid ha s) (by simp) g5
  rcases (C86_verify hl hc hu os' draws clock jwkSetPath audience' tokenPath w').status with
    ⟨_, path, text, h3, token', _, _, _, k4, p', v, a, k5, k6, k7⟩ | ⟨h, _⟩
  · have htok : token' = token := by
      have hr := k4
      obtain ⟨_, ⟨hr, _⟩, _⟩ := hr
      obtain ⟨b2, e1, e2⟩ := textChar_text (compact_textChar hcomp)
      rw [hb] at e1; cases e1
      exact textFile_unique k4 ⟨b, ⟨hr, by rw [hos, ht]; exact hu1.1⟩, e2⟩
    subst htok
    rw [newValidator_audience] at k6; cases k6
    obtain ⟨kps', H'⟩ := obtained_verify hl hc k5
    obtain ⟨_, _, _, _, _, _, _, _, _, _, header', payload', signature', _, _, hcomp', _, _, ⟨hpay', _⟩, hty, hval⟩ :=
      C82_signature_accepted H' (jwtManagers hl).verify hu k7
    obtain ⟨rfl, rfl, rfl⟩ := Compact.unique hcomp hcomp'
    obtain ⟨_, _, j1, j2, j3⟩ := hpay
    have hpl := partText_unique ⟨_, _, C82_form_read j1, j2, j3⟩ hpay'
    simp only [JVal.dict.injEq] at hpl
    obtain ⟨⟨th, pl⟩⟩ := a
    simp only at hpl hval
    rw [← hpl] at hval
    obtain ⟨_, k8, _, k9⟩ := (program_validate _ _ clock audience audience' g6 g7).1 hval
    have e : moment ⟨now + 100000000, utc⟩ = now + 100000000 := by unfold moment utc; simp
    have near := g8.near.1
    have down := g8.down
    rw [e] at near down
    refine ⟨k9, by omega, fun j1 j2 => ?_⟩
    have := down j1 j2
    omega
  · rw [h1] at h; cases h

end

/-! ## Examples -/

namespace CliJwtExample
open ToyJwt KeysetJsonExample

abbrev E := jsonEnv true

def privateText : PyStr := value [] (JsonProtoKeysetFormat.serialize E ⟨signKeyset⟩ .secretKeyAccess)
def publicText : PyStr := value [] (JsonProtoKeysetFormat.serializeWithoutSecret E ⟨verifyKeyset⟩)

/-- The private keyset at `k`, the public one at `p`. -/
def world : World Nat := CliExample.world privateText publicText []

def now : Int := 1700000000500000

def signRun := jwtSignCli (κ := Nat) library isInst E CliExample.os 5 now (py! "k") (py! "me") (py! "t")
def jwkRun := jwkSetCli (κ := Nat) library isInst E CliExample.os (py! "p") (py! "j")
def verifyRun (clock : Int) (audience : PyStr) :=
  jwtVerifyCli (κ := Nat) library isInst CliExample.os [3, 3, 4] clock (some (py! "j")) audience (py! "t")

theorem sign_ok : exitStatus (signRun world) = 0 := by decide +kernel
theorem jwk_ok : exitStatus (jwkRun (signRun world).2) = 0 := by decide +kernel

theorem private_file : KeysetFile E CliExample.os world.files (py! "k") ⟨signKeyset⟩ :=
  ⟨_, privateText, ⟨rfl, rfl⟩, (textOf_iff _ _).2 (by decide +kernel), by decide +kernel⟩

theorem public_file : PublicKeysetFile E CliExample.os world.files (py! "p") ⟨verifyKeyset⟩ :=
  ⟨publicText, ⟨_, ⟨rfl, rfl⟩, (textOf_iff _ _).2 (by decide +kernel)⟩, by decide +kernel⟩

theorem public_keys (k : Key) (hk : k ∈ signKeyset.key) (_ : IsPrimaryKey signKeyset k) :
    ∃ k' ∈ verifyKeyset.key, Enabled k' ∧ PublicKeyOf library k k' := by
  simp only [signKeyset, List.mem_cons, List.not_mem_nil, or_false] at hk
  subst hk
  exact ⟨verifyKey2, by simp [verifyKeyset], rfl, rfl, rfl, ⟨_, _, toy_signKey, toy_verifyKey⟩,
    toy_sign_verify⟩

/-- The object of the public keyset in a process that has registered signatures only. -/
theorem public_object : ∃ p, (⟨verifyKeyset⟩ : KeysetHandle).primitive isInst (jwtRegistry library isInst) .verify =
    .ok p := by
  have : ((⟨verifyKeyset⟩ : KeysetHandle).primitive isInst (jwtRegistry library isInst) .verify).toBool = true := by
    decide +kernel
  cases h : (⟨verifyKeyset⟩ : KeysetHandle).primitive isInst (jwtRegistry library isInst) .verify with
  | ok p => exact ⟨p, rfl⟩
  | error e => rw [h] at this; cases this

/-- 99 seconds later the token is verified. -/
example : exitStatus (verifyRun (now + 99000000) (py! "me") (jwkRun (signRun world).2).2) = 0 := by
  obtain ⟨p, hp⟩ := public_object
  exact C86_chain toyLawful toy_classes ToyJson.lawful lawfulUpper toy_signature_errors toy_same toy_takes
    (fun _ => rfl) (fun _ => rfl) (List.all_eq_true.1 (by decide)) private_file public_file public_keys hp
    (by decide) (by decide) sign_ok jwk_ok rfl rfl rfl 100 (by
      intro k hk he alg a b kid hp
      simp only [verifyKeyset, List.mem_cons, List.not_mem_nil, or_false] at hk
      rcases hk with rfl | rfl
      · obtain ⟨rfl, rfl, rfl⟩ := public_size verifyKey1_public hp; decide +kernel
      · obtain ⟨rfl, rfl, rfl⟩ := public_size verifyKey2_public hp; decide +kernel)
    (by decide) [3, 3, 4] [3, 4] (by decide) (by decide) (by decide) (by unfold Representable now; decide)
    (by decide)

/-- The last moment: the expiration is rounded to the whole second before. -/
example : exitStatus (verifyRun 1700000099999999 (py! "me") (jwkRun (signRun world).2).2) = 0 ∧
    exitStatus (verifyRun 1700000100000000 (py! "me") (jwkRun (signRun world).2).2) = 1 ∧
    exitStatus (verifyRun now (py! "you") (jwkRun (signRun world).2).2) = 1 := by decide +kernel

/-- So the hypotheses of `C86_verified` are met. -/
example := C86_verified (w := world) (w' := (jwkRun (signRun world).2).2) (clock := 1700000099999999) toyLawful
  toy_classes ToyJson.lawful lawfulUpper (fun _ => rfl) (List.all_eq_true.1 (by decide)) sign_ok (by decide +kernel)
  (show exitStatus (verifyRun 1700000099999999 (py! "me") (jwkRun (signRun world).2).2) = 0 by decide +kernel)

example := C86_token_file toyLawful toy_classes sign_ok

/-- The token with a line end after it is refused. -/
example : exitStatus (verifyRun now (py! "me") ((jwkRun (signRun world).2).2.put 116
      (((signRun world).2.files 116).getD [] ++ [10]))) = 1 ∧
    exitStatus (verifyRun now (py! "me") ((jwkRun (signRun world).2).2.put 116
      (((signRun world).2.files 116).getD []))) = 0 := by decide +kernel

/-- A keyset of public keys does not sign; the token file is left alone. -/
example : exitStatus (jwtSignCli (κ := Nat) library isInst E CliExample.os 5 now (py! "p") (py! "me") (py! "o") world) = 1 ∧
    (jwtSignCli (κ := Nat) library isInst E CliExample.os 5 now (py! "p") (py! "me") (py! "o") world).2.files 111 =
      some [9, 9] := by decide +kernel

/-- The JWK set of a private keyset is not written. -/
example : exitStatus (jwkSetCli (κ := Nat) library isInst E CliExample.os (py! "k") (py! "o") world) = 1 ∧
    (jwkSetCli (κ := Nat) library isInst E CliExample.os (py! "k") (py! "o") world).2.files 111 = some [9, 9] := by
  decide +kernel

end CliJwtExample

end Tink.Props
