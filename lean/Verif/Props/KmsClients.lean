import Verif.Kms.NameLemmas
import Verif.Keyset.HandleLemmas

/-!
# C35-C38: KMS clients
-/

namespace Tink.Props
open Spec

/-! ## C35 -/

/-- C35.  After any history, the client found for a URI is the one registered since the last reset
that says it supports the URI, all registered before it (since the reset) saying that they do not. -/
theorem C35_selects_first {A : Type} (h : List (KmsOp A)) (uri : PyStr) (c : KmsClient A) :
    kmsClientFromUri (kmsHistory h) uri = .ok c ↔
      ∃ old before after, SinceReset h old (before ++ .register c :: after) ∧
        (∀ d, .register d ∈ before → d.doesSupport uri = .ok false) ∧
        c.doesSupport uri = .ok true := by
  rw [kmsClientFromUri_ok]
  constructor
  · rintro ⟨l, r, hc, hl, ht⟩
    obtain ⟨old, recent, hs⟩ := exists_sinceReset h
    have hreg := kmsHistory_since hs
    rw [hc] at hreg
    have hrec := eq_map_registered hs.recent
    rw [← hreg, List.map_append, List.map_cons] at hrec
    refine ⟨old, l.map .register, r.map .register, hrec ▸ hs, fun d hd => ?_, ht⟩
    obtain ⟨d', hd', he⟩ := List.mem_map.1 hd
    cases he
    exact hl _ hd'
  · rintro ⟨old, before, after, hs, hb, ht⟩
    refine ⟨registered before, registered after, ?_, fun d hd => hb d (mem_registered.1 hd), ht⟩
    rw [kmsHistory_since hs, registered_append]; rfl

/-- C35.  `TinkError` is raised when no client registered since the last reset supports the URI; and
if none of them raises an exception itself, only then. -/
theorem C35_none {A : Type} {h old recent : List (KmsOp A)} (hs : SinceReset h old recent)
    (uri : PyStr) :
    ((∀ d, .register d ∈ recent → d.doesSupport uri = .ok false) →
      kmsClientFromUri (kmsHistory h) uri = .error .tinkError) ∧
    ((∀ d e, .register d ∈ recent → d.doesSupport uri ≠ .error e) →
      ∀ e, kmsClientFromUri (kmsHistory h) uri = .error e →
        e = .tinkError ∧ ∀ d, .register d ∈ recent → d.doesSupport uri = .ok false) := by
  rw [kmsHistory_since hs]
  constructor
  · intro hf
    exact (kmsClientFromUri_error _ _ _).2 (.inl ⟨rfl, fun d hd => hf d (mem_registered.1 hd)⟩)
  · intro hn e he
    rcases (kmsClientFromUri_error _ _ _).1 he with ⟨rfl, ha⟩ | ⟨l, c, r, hc, _, hce⟩
    · exact ⟨rfl, fun d hd => ha d (mem_registered.2 hd)⟩
    · exact absurd hce (hn c e (mem_registered.1 (by rw [hc]; simp)))

/-- C35.  An exception raised by the first client that does not say "no" is passed on. -/
theorem C35_raising_client {A : Type} {h old before after : List (KmsOp A)} {c : KmsClient A}
    (hs : SinceReset h old (before ++ .register c :: after)) {uri : PyStr} {e : Exc}
    (hb : ∀ d, .register d ∈ before → d.doesSupport uri = .ok false)
    (hc : c.doesSupport uri = .error e) :
    kmsClientFromUri (kmsHistory h) uri = .error e := by
  rw [kmsHistory_since hs, registered_append]
  exact (kmsClientFromUri_error _ _ _).2
    (.inr ⟨registered before, c, registered after, rfl, fun d hd => hb d (mem_registered.1 hd), hc⟩)

/-! ## C36 -/

/-- C36.  Different associated data give different encryption contexts. -/
theorem C36_context_injective {a b : Bytes}
    (h : Aws.encryptionContext a = Aws.encryptionContext b) : a = b := by
  unfold Aws.encryptionContext at h
  by_cases ha : a = []
  · by_cases hb : b = []
    · rw [ha, hb]
    · simp [ha, hb] at h
  · by_cases hb : b = []
    · simp [ha, hb] at h
    · simp only [ne_eq, ha, not_false_eq_true, if_true, hb, List.cons.injEq, Prod.mk.injEq,
        true_and, and_true] at h
      exact Aws.hexlify_inj h

/-- C36.  The context is empty exactly for empty associated data. -/
theorem C36_context_empty (a : Bytes) : Aws.encryptionContext a = [] ↔ a = [] := by
  unfold Aws.encryptionContext
  by_cases ha : a = [] <;> simp [ha]

/-- C36.  Otherwise it has the single entry `associatedData`, two lower case hexadecimal digits per
byte. -/
theorem C36_context_entry {a : Bytes} (ha : a ≠ []) :
    ∃ v, Aws.encryptionContext a = [(py! "associatedData", v)] ∧ v.length = 2 * a.length ∧
      ∀ c ∈ v, (48 ≤ c ∧ c ≤ 57) ∨ (97 ≤ c ∧ c ≤ 102) := by
  refine ⟨Aws.hexlify a, by simp [Aws.encryptionContext, ha], ?_, ?_⟩
  · clear ha
    induction a with
    | nil => rfl
    | cons x a ih =>
      simp only [Aws.hexlify, List.flatMap_cons, List.length_append, List.length_cons,
        List.length_nil] at ih ⊢
      omega
  · intro c hc
    obtain ⟨x, _, hx⟩ := List.mem_flatMap.1 hc
    have hlt := x.toNat_lt
    have hd : ∀ n, n < 16 → (48 ≤ Aws.hexDigit n ∧ Aws.hexDigit n ≤ 57) ∨
        (97 ≤ Aws.hexDigit n ∧ Aws.hexDigit n ≤ 102) := by
      intro n hn; unfold Aws.hexDigit; split <;> omega
    simp only [List.mem_cons, List.not_mem_nil, or_false] at hx
    rcases hx with rfl | rfl
    · exact hd _ (by omega)
    · exact hd _ (by omega)

/-- C36.  The AWS AEAD passes exactly this context, and the data and key name, to the service. -/
theorem C36_context_used {σ : Type} (client : Aws.Boto σ) (arn : PyStr) (s : σ) (x ad : Bytes) :
    ((Aws.awsKmsAead client arn).encrypt s x ad).1 =
      (client.encrypt s arn x (Aws.encryptionContext ad)).1 ∧
    ((Aws.awsKmsAead client arn).decrypt s x ad).1 =
      (client.decrypt s arn x (Aws.encryptionContext ad)).1 ∧
    (∀ y, ((Aws.awsKmsAead client arn).encrypt s x ad).2 = .ok y ↔
      (client.encrypt s arn x (Aws.encryptionContext ad)).2 = .ok y) ∧
    (∀ y, ((Aws.awsKmsAead client arn).decrypt s x ad).2 = .ok y ↔
      (client.decrypt s arn x (Aws.encryptionContext ad)).2 = .ok y) := by
  have key : ∀ (r : Py Bytes) y, Aws.convertClientError client.isClientError r = .ok y ↔ r = .ok y := by
    intro r y
    cases r with
    | ok b => rfl
    | error e => unfold Aws.convertClientError; simp only; split <;> simp
  exact ⟨rfl, rfl, fun y => key _ y, fun y => key _ y⟩

/-! ## C37: AWS -/

/-- C37.  An AWS client can be made without a URI or with a well-formed one; otherwise `TinkError`. -/
theorem C37_aws_create {σ : Type} (client : Aws.Boto σ) (keyUri : Option PyStr) :
    ((∃ c, Aws.newClient client keyUri = .ok c) ↔
      keyUri = none ∨ keyUri = some [] ∨ ∃ uri region rest, keyUri = some uri ∧
        AwsKeyUri uri region rest) ∧
    (∀ e, Aws.newClient client keyUri = .error e → e = .tinkError) := by
  unfold Aws.newClient Aws.initKeyUri
  cases keyUri with
  | none => simp [bind, Except.bind, pure, Except.pure]
  | some uri =>
    by_cases h0 : uri = []
    · simp [h0, bind, Except.bind, pure, Except.pure]
    · by_cases hf : Aws.hasAwsKeyUriFormat uri = true
      · obtain ⟨region, rest, h⟩ := (Aws.hasAwsKeyUriFormat_iff uri).1 hf
        constructor
        · constructor
          · intro _; exact .inr (.inr ⟨uri, region, rest, rfl, h⟩)
          · intro _; simp [h0, hf, bind, Except.bind, pure, Except.pure]
        · simp [h0, hf, bind, Except.bind, pure, Except.pure]
      · have hf' : Aws.hasAwsKeyUriFormat uri = false := by simpa using hf
        constructor
        · constructor
          · simp [h0, hf', bind, Except.bind]
          · rintro (h | h | ⟨u, region, rest, h, hu⟩)
            · cases h
            · cases h; exact absurd rfl h0
            · cases h; exact absurd ((Aws.hasAwsKeyUriFormat_iff uri).2 ⟨_, _, hu⟩) hf
        · intro e he
          simp [h0, hf', bind, Except.bind] at he
          exact he.symm

theorem aws_bound {keyUri : Option PyStr} {b : Option PyStr} (h : Aws.initKeyUri keyUri = .ok b)
    {uri : PyStr} (hu : ∃ region rest, AwsKeyUri uri region rest) :
    (b = none ∨ b = some uri) ↔ BoundTo keyUri uri := by
  have hne : uri ≠ [] := by
    obtain ⟨_, _, h⟩ := hu; rw [h.form]; simp
  unfold Aws.initKeyUri at h
  unfold BoundTo
  cases keyUri with
  | none => cases h; simp
  | some k =>
    simp only at h
    split at h
    · rename_i hk; cases h; simp [hk]
    · rename_i hk
      split at h
      · cases h
      · cases h
        simp [hk]

/-- C37.  An AWS client supports exactly the well-formed URIs, or, if bound to one, only that one;
for others `get_aead` raises `TinkError`; for these it gives the AEAD of the key whose ARN is the
URI without the scheme. -/
theorem C37_aws_get_aead {σ : Type} {client : Aws.Boto σ} {keyUri : Option PyStr}
    {c : KmsClient (RemoteAead σ)} (hc : Aws.newClient client keyUri = .ok c) (uri : PyStr) :
    (BoundTo keyUri uri ∧ (∃ region rest, AwsKeyUri uri region rest) ∧
      c.doesSupport uri = .ok true ∧
      ∃ arn, uri = py! "aws-kms://" ++ arn ∧ c.getAead uri = .ok (Aws.awsKmsAead client arn)) ∨
    (¬ (BoundTo keyUri uri ∧ ∃ region rest, AwsKeyUri uri region rest) ∧
      c.doesSupport uri = .ok false ∧ c.getAead uri = .error .tinkError) := by
  obtain ⟨b, hb, hc⟩ := bind_ok_iff.1 hc
  cases hc
  by_cases hs : Aws.doesSupport b uri = true
  · left
    obtain ⟨hu, hbu⟩ := (Aws.doesSupport_iff _ _).1 hs
    refine ⟨(aws_bound hb hu).1 hbu, hu, by rw [← hs], ?_⟩
    obtain ⟨region, rest, hu⟩ := hu
    refine ⟨uri.drop Aws.AWS_KEYURI_PREFIX.length, ?_, ?_⟩
    · rw [hu.form]; simp [Aws.AWS_KEYURI_PREFIX]
    · simp only [Aws.getAead, hs, Aws.keyUriToKeyArn]
      have : startsWith uri Aws.AWS_KEYURI_PREFIX = true := by
        rw [hu.form]; simp [startsWith, Aws.AWS_KEYURI_PREFIX]
      simp [this, bind, Except.bind, pure, Except.pure]
  · right
    have hs' : Aws.doesSupport b uri = false := by simpa using hs
    refine ⟨?_, by rw [← hs'], by simp [Aws.getAead, hs']⟩
    rintro ⟨h1, h2⟩
    exact hs ((Aws.doesSupport_iff _ _).2 ⟨h2, (aws_bound hb h2).2 h1⟩)

/-- C37.  The client that makes its own sessions accepts the same URIs, connects to the region named
in the URI, and additionally refuses, with `TinkError`, ARNs with nothing after the account. -/
theorem C37_aws_session_get_aead {σ : Type} {session : PyStr → Aws.Boto σ} {keyUri : Option PyStr}
    {c : KmsClient (RemoteAead σ)} (hc : Aws.AwsKmsClient.create session keyUri = .ok c) (uri : PyStr) :
    (∃ region rest, AwsKeyUri uri region rest ∧ BoundTo keyUri uri ∧ c.doesSupport uri = .ok true ∧
      ((58 ∈ rest ∧ ∃ arn, uri = py! "aws-kms://" ++ arn ∧
          c.getAead uri = .ok (Aws.awsKmsAead (session region) arn)) ∨
        (58 ∉ rest ∧ c.getAead uri = .error .tinkError))) ∨
    (¬ (BoundTo keyUri uri ∧ ∃ region rest, AwsKeyUri uri region rest) ∧
      c.doesSupport uri = .ok false ∧ c.getAead uri = .error .tinkError) := by
  obtain ⟨b, hb, hc⟩ := bind_ok_iff.1 hc
  cases hc
  by_cases hs : Aws.doesSupport b uri = true
  · left
    obtain ⟨hu, hbu⟩ := (Aws.doesSupport_iff _ _).1 hs
    have hbt := (aws_bound hb hu).1 hbu
    obtain ⟨region, rest, hu⟩ := hu
    refine ⟨region, rest, hu, hbt, by rw [← hs], ?_⟩
    have hstart : startsWith uri Aws.AWS_KEYURI_PREFIX = true := by
      rw [hu.form]; simp [startsWith, Aws.AWS_KEYURI_PREFIX]
    have harn : uri.drop Aws.AWS_KEYURI_PREFIX.length =
        py! "arn" ++ 58 :: (py! "aws" ++ 58 :: (py! "kms" ++ 58 :: (region ++ 58 :: rest))) := by
      rw [hu.form]; simp [Aws.AWS_KEYURI_PREFIX]
    have hreg : 58 ∉ region := fun h => by
      have := hu.chars 58 h; omega
    have hsplit : Aws.splitColon (uri.drop Aws.AWS_KEYURI_PREFIX.length) =
        py! "arn" :: py! "aws" :: py! "kms" :: region :: Aws.splitColon rest := by
      rw [harn, Aws.splitColon_append _ _ (by decide), Aws.splitColon_append _ _ (by decide),
        Aws.splitColon_append _ _ (by decide), Aws.splitColon_append _ _ hreg]
    by_cases hr : 58 ∈ rest
    · left
      refine ⟨hr, uri.drop Aws.AWS_KEYURI_PREFIX.length, ?_, ?_⟩
      · rw [hu.form]; simp [Aws.AWS_KEYURI_PREFIX]
      · obtain ⟨x, y, z, hxyz⟩ := Aws.splitColon_two hr
        simp only [Aws.AwsKmsClient.getAead, hs, Aws.keyUriToKeyArn, hstart, Aws.getRegionFromKeyArn,
          Bool.not_true, Bool.false_eq_true, if_false, bind, Except.bind, hsplit, hxyz]
        rfl
    · right
      refine ⟨hr, ?_⟩
      simp only [Aws.AwsKmsClient.getAead, hs, Aws.keyUriToKeyArn, hstart, Aws.getRegionFromKeyArn,
        Bool.not_true, Bool.false_eq_true, if_false, bind, Except.bind, hsplit,
        Aws.splitColon_none hr]
  · right
    have hs' : Aws.doesSupport b uri = false := by simpa using hs
    refine ⟨?_, by rw [← hs'], by simp [Aws.AwsKmsClient.getAead, hs']⟩
    rintro ⟨h1, h2⟩
    exact hs ((Aws.doesSupport_iff _ _).2 ⟨h2, (aws_bound hb h2).2 h1⟩)

/-! ## C37: Google Cloud -/

/-- C37.  A GCP client can be made without a URI or with one that has the scheme `gcp-kms://`;
otherwise `TinkError`. -/
theorem C37_gcp_create {σ : Type} (client : Gcp.ApiClient σ) (keyUri : Option PyStr) :
    ((∃ c, Gcp.GcpKmsClient.create client keyUri = .ok c) ↔
      keyUri = none ∨ keyUri = some [] ∨ ∃ name, keyUri = some (py! "gcp-kms://" ++ name)) ∧
    (∀ e, Gcp.GcpKmsClient.create client keyUri = .error e → e = .tinkError) := by
  unfold Gcp.GcpKmsClient.create Gcp.initKeyUri
  cases keyUri with
  | none => simp [bind, Except.bind, pure, Except.pure]
  | some uri =>
    by_cases h0 : uri = []
    · simp [h0, bind, Except.bind, pure, Except.pure]
    · by_cases hf : startsWith uri Gcp.GCP_KEYURI_PREFIX = true
      · obtain ⟨name, h⟩ := startsWith_iff.1 hf
        constructor
        · constructor
          · intro _; exact .inr (.inr ⟨name, by rw [h]; rfl⟩)
          · intro _; simp [h0, hf, bind, Except.bind, pure, Except.pure]
        · simp [h0, hf, bind, Except.bind, pure, Except.pure]
      · have hf' : startsWith uri Gcp.GCP_KEYURI_PREFIX = false := by simpa using hf
        constructor
        · constructor
          · simp [h0, hf', bind, Except.bind]
          · rintro (h | h | ⟨name, h⟩)
            · cases h
            · cases h; exact absurd rfl h0
            · cases h; exact absurd (startsWith_iff.2 ⟨name, rfl⟩) hf
        · intro e he
          simp [h0, hf', bind, Except.bind] at he
          exact he.symm

/-- What `get_aead` does with a supported URI. -/
def GcpGet {σ : Type} (client : Gcp.ApiClient σ) (name : PyStr) : Prop :=
  (∃ n p l r k, GcpKeyName n p l r k ∧ (name = n ∨ name = n ++ py! "\n") ∧
    Gcp.GcpKmsAead.create client name = .ok (Gcp.gcpKmsAead client name)) ∨
  (¬ (∃ n p l r k, GcpKeyName n p l r k ∧ (name = n ∨ name = n ++ py! "\n")) ∧
    Gcp.GcpKmsAead.create client name = .error .tinkError)

theorem gcpGet {σ : Type} (client : Gcp.ApiClient σ) (name : PyStr) : GcpGet client name := by
  unfold GcpGet Gcp.GcpKmsAead.create
  by_cases hm : Gcp.matchKeyName name = true
  · left
    obtain ⟨n, p, l, r, k, hn, hk⟩ := (Gcp.matchKeyName_iff name).1 hm
    have hne : name ≠ [] := by
      rintro rfl; exact absurd hm (by decide)
    exact ⟨n, p, l, r, k, hk, hn, by simp [hne, hm]⟩
  · right
    refine ⟨?_, ?_⟩
    · rintro ⟨n, p, l, r, k, hk, hn⟩
      exact hm ((Gcp.matchKeyName_iff name).2 ⟨n, p, l, r, k, hn, hk⟩)
    · have hm' : Gcp.matchKeyName name = false := by simpa using hm
      simp [hm']

/-- C37.  A GCP client supports exactly the URIs with its scheme, or, if bound to one, only that one.
`get_aead` gives the AEAD of exactly the named key when the client supports the URI and the name is
a key name, possibly followed by a newline; in all other cases it raises `TinkError`. -/
theorem C37_gcp_get_aead {σ : Type} {client : Gcp.ApiClient σ} {keyUri : Option PyStr}
    {c : KmsClient (RemoteAead σ)} (hc : Gcp.GcpKmsClient.create client keyUri = .ok c)
    (uri : PyStr) :
    (∃ name, uri = py! "gcp-kms://" ++ name ∧ BoundTo keyUri uri ∧ c.doesSupport uri = .ok true ∧
      ((∃ n p l r k, GcpKeyName n p l r k ∧ (name = n ∨ name = n ++ py! "\n") ∧
          c.getAead uri = .ok (Gcp.gcpKmsAead client name)) ∨
        (¬ (∃ n p l r k, GcpKeyName n p l r k ∧ (name = n ∨ name = n ++ py! "\n")) ∧
          c.getAead uri = .error .tinkError))) ∨
    (¬ (BoundTo keyUri uri ∧ ∃ name, uri = py! "gcp-kms://" ++ name) ∧
      c.doesSupport uri = .ok false ∧ c.getAead uri = .error .tinkError) := by
  obtain ⟨b, hb, hc⟩ := bind_ok_iff.1 hc
  cases hc
  unfold Gcp.initKeyUri at hb
  by_cases hp : ∃ name, uri = py! "gcp-kms://" ++ name
  · obtain ⟨name, hn⟩ := hp
    have hst : startsWith uri Gcp.GCP_KEYURI_PREFIX = true := startsWith_iff.2 ⟨name, hn⟩
    have hne : uri ≠ [] := by rw [hn]; simp
    by_cases hbt : b = none ∨ b = some uri
    · left
      have hB : BoundTo keyUri uri := by
        unfold BoundTo
        cases keyUri with
        | none => exact .inl rfl
        | some k =>
          simp only at hb
          split at hb
          · rename_i hk; exact .inr (.inl (by rw [hk]))
          · split at hb
            · cases hb; exact .inr (.inr (by simpa using hbt))
            · cases hb
      have hsup : Gcp.doesSupport b uri = true := by
        rcases hbt with rfl | rfl
        · exact hst
        · simp [Gcp.doesSupport]
      refine ⟨name, hn, hB, by rw [← hsup], ?_⟩
      have hg : Gcp.getAead client b uri = Gcp.GcpKmsAead.create client name := by
        have hd : uri.drop Gcp.GCP_KEYURI_PREFIX.length = name := by
          rw [hn]; exact List.drop_left
        rcases hbt with rfl | rfl
        · simp [Gcp.getAead, hst, hd]
        · simp [Gcp.getAead, hst, hd]
      simp only [hg]
      exact gcpGet client name
    · right
      cases b with
      | none => exact absurd (.inl rfl) hbt
      | some b =>
        have hbu : ¬ uri = b := fun h => hbt (.inr (by rw [h]))
        refine ⟨?_, by simp [Gcp.doesSupport, hbu], ?_⟩
        · rintro ⟨hB, _⟩
          unfold BoundTo at hB
          cases keyUri with
          | none => cases hb
          | some k =>
            simp only at hb
            split at hb
            · cases hb
            · rename_i hk
              split at hb
              · cases hb
                rcases hB with h | h | h
                · cases h
                · cases h; exact hk rfl
                · cases h; exact hbu rfl
              · cases hb
        · have : ¬ b = uri := fun h => hbu h.symm
          simp [Gcp.getAead, this]
  · right
    have hst : startsWith uri Gcp.GCP_KEYURI_PREFIX = false := by
      rw [Bool.eq_false_iff]; exact fun h => hp (startsWith_iff.1 h)
    have hbs : ∀ k, b = some k → startsWith k Gcp.GCP_KEYURI_PREFIX = true := by
      intro k hk
      subst hk
      cases keyUri with
      | none => cases hb
      | some k' =>
        simp only at hb
        split at hb
        · cases hb
        · split at hb
          · cases hb; assumption
          · cases hb
    refine ⟨fun h => hp h.2, ?_, ?_⟩
    · cases b with
      | none => simp [Gcp.doesSupport, hst]
      | some k =>
        have : ¬ uri = k := by
          rintro rfl; have := hbs _ rfl; rw [hst] at this; cases this
        simp [Gcp.doesSupport, this]
    · have : ∀ q : Bool, (if q then (Except.error Exc.tinkError : Py (RemoteAead σ))
          else .error .tinkError) = .error .tinkError := by intro q; cases q <;> rfl
      simp only [Gcp.getAead, hst, Bool.not_false, if_true]
      exact this _

/-- C37.  A trailing newline is not refused: the client asks the service for a key whose name ends
in a newline, although no such name has the documented form. -/
theorem C37_gcp_newline_accepted {σ : Type} (client : Gcp.ApiClient σ) :
    ∃ c uri name, Gcp.GcpKmsClient.create client none = .ok c ∧ uri = py! "gcp-kms://" ++ name ∧
      (∀ p l r k, ¬ GcpKeyName name p l r k) ∧
      c.getAead uri = .ok (Gcp.gcpKmsAead client name) := by
  refine ⟨_, _, py! "projects/p/locations/l/keyRings/r/cryptoKeys/k\n", rfl, rfl, ?_, ?_⟩
  · intro p l r k h
    have h10 : 10 ∈ k := by
      have hf := h.form
      have hl := congrArg List.getLast? hf
      rw [List.getLast?_append] at hl
      cases hk : k.getLast? with
      | none => exact absurd (List.getLast?_eq_none_iff.1 hk) h.key.nonempty
      | some x =>
        rw [hk] at hl
        have : x = 10 := by
          have := Option.some.inj (hl.symm.trans (by rfl : _ = some 10))
          simpa using this
        subst this
        exact List.mem_of_getLast? hk
    have := h.key.chars 10 h10
    omega
  · have hm : Gcp.matchKeyName (py! "projects/p/locations/l/keyRings/r/cryptoKeys/k\n") = true := by
      decide
    have hs : startsWith (py! "gcp-kms://" ++ py! "projects/p/locations/l/keyRings/r/cryptoKeys/k\n")
      Gcp.GCP_KEYURI_PREFIX = true := by decide
    simp only [Gcp.getAead, hs, Gcp.GcpKmsAead.create]
    simp [Gcp.GCP_KEYURI_PREFIX, hm]

/-- C37.  A bound GCP client supports its URI even if the name in it is malformed; then `get_aead`
raises `TinkError`. -/
theorem C37_gcp_supported_but_refused {σ : Type} (client : Gcp.ApiClient σ) :
    ∃ c uri, Gcp.GcpKmsClient.create client (some uri) = .ok c ∧ c.doesSupport uri = .ok true ∧
      c.getAead uri = .error .tinkError := by
  refine ⟨_, py! "gcp-kms://x", rfl, ?_, ?_⟩
  · simp [Gcp.doesSupport]
  · have h1 : startsWith (py! "gcp-kms://x") Gcp.GCP_KEYURI_PREFIX = true := by decide
    have h2 : Gcp.GcpKmsAead.create client ((py! "gcp-kms://x").drop Gcp.GCP_KEYURI_PREFIX.length) =
      .error .tinkError := by simp [Gcp.GcpKmsAead.create, Gcp.GCP_KEYURI_PREFIX, Gcp.matchKeyName,
        Gcp.lit, startsWith]
    simp only [Gcp.getAead, h1, h2]
    simp

/-- C37.  The GCP AEAD passes the key name, the data and the associated data to the service. -/
theorem C37_gcp_call {σ : Type} (client : Gcp.ApiClient σ) (name : PyStr) (s : σ) (x ad : Bytes) :
    ((Gcp.gcpKmsAead client name).encrypt s x ad).1 = (client.encrypt s name x ad).1 ∧
    ((Gcp.gcpKmsAead client name).decrypt s x ad).1 = (client.decrypt s name x ad).1 ∧
    (∀ y, ((Gcp.gcpKmsAead client name).encrypt s x ad).2 = .ok y ↔
      (client.encrypt s name x ad).2 = .ok y) ∧
    (∀ y, ((Gcp.gcpKmsAead client name).decrypt s x ad).2 = .ok y ↔
      (client.decrypt s name x ad).2 = .ok y) := by
  have key : ∀ (r : Py Bytes) y, Gcp.convertApiError client.isApiError r = .ok y ↔ r = .ok y := by
    intro r y
    cases r with
    | ok b => rfl
    | error e => unfold Gcp.convertApiError; simp only; split <;> simp
  exact ⟨rfl, rfl, fun y => key _ y, fun y => key _ y⟩

/-! ## C37: Vault -/

/-- C37.  A Vault key path without surrogates is accepted exactly when it is `mount/keys/name`, with
an optional leading slash; the AEAD then uses the percent-encoded mount and name.  Otherwise
`TinkError`. -/
theorem C37_vault_path {σ : Type} (client : Vault.Transit σ) {path : PyStr}
    (hu : path.all isScalar = true) :
    (∃ mount name m n, VaultPath path mount name ∧ Vault.quote mount = .ok m ∧
      Vault.quote name = .ok n ∧ Vault.newAead path client = .ok (Vault.vaultAead client m n)) ∨
    ((∀ mount name, ¬ VaultPath path mount name) ∧
      Vault.newAead path client = .error .tinkError) := by
  have hq : Vault.quote path = .ok (Vault.quoted path) := by
    rw [Vault.quote_eq, hu]; rfl
  unfold Vault.newAead Vault.getEndpointPaths
  simp only [hq, bind, Except.bind]
  cases hm : Vault.matchPath (Vault.quoted path) with
  | none =>
    right
    refine ⟨fun mount name h => ?_, rfl⟩
    have := (Vault.matchPath_quoted hu (Vault.quoted mount) (Vault.quoted name)).2
      ⟨mount, name, h, rfl, rfl⟩
    rw [hm] at this; cases this
  | some g =>
    left
    obtain ⟨m, n⟩ := g
    obtain ⟨mount, name, hv, rfl, rfl⟩ := (Vault.matchPath_quoted hu m n).1 hm
    have hsc : mount.all isScalar = true ∧ name.all isScalar = true := by
      rcases hv.form with h | h <;> rw [h] at hu <;>
        simp only [List.all_append, Bool.and_eq_true] at hu
      · exact ⟨hu.1.1, hu.2⟩
      · exact ⟨hu.1.1.2, hu.2⟩
    refine ⟨mount, name, _, _, hv, ?_, ?_, rfl⟩
    · rw [Vault.quote_eq, hsc.1]; rfl
    · rw [Vault.quote_eq, hsc.2]; rfl

/-- C37.  A path with surrogates raises `UnicodeEncodeError`. -/
theorem C37_vault_surrogates {σ : Type} (client : Vault.Transit σ) {path : PyStr}
    (hu : path.all isScalar = false) : Vault.newAead path client = .error .unicodeError := by
  unfold Vault.newAead Vault.getEndpointPaths
  rw [Vault.quote_eq, hu]; rfl

/-- C37.  A path names at most one mount and key. -/
theorem C37_vault_unique {path mount name mount' name' : PyStr} (h : VaultPath path mount name)
    (h' : VaultPath path mount' name') : mount = mount' ∧ name = name' := by
  rw [← Vault.matchPath_iff] at h h'
  rw [h] at h'
  cases h'
  exact ⟨rfl, rfl⟩

/-- C37.  Different mounts or names stay different when percent-encoded. -/
theorem C37_vault_quote_injective {a b q : PyStr} (ha : Vault.quote a = .ok q)
    (hb : Vault.quote b = .ok q) : a = b := by
  rw [Vault.quote_eq] at ha hb
  split at ha
  · rename_i h1
    split at hb
    · rename_i h2
      exact Vault.quoted_inj h1 h2 ((Except.ok.inj ha).trans (Except.ok.inj hb).symm)
    · cases hb
  · cases ha

theorem quote_table : ∀ n < 256,
    let b := UInt8.ofNat n
    (n ∈ py! "ABCDEFGHIJKLMNOPQRSTUVWXYZabcdefghijklmnopqrstuvwxyz0123456789_.-~/" ∧
      Vault.quoteByte b = [n]) ∨
    (n ∉ py! "ABCDEFGHIJKLMNOPQRSTUVWXYZabcdefghijklmnopqrstuvwxyz0123456789_.-~/" ∧
      (Vault.quoteByte b)[0]? = some 37 ∧ (Vault.quoteByte b).length = 3 ∧
      (Vault.quoteByte b)[1]? = hexDigits[n / 16]? ∧
      (Vault.quoteByte b)[2]? = hexDigits[n % 16]?) := by decide +kernel

/-- C37.  The mount and the name are sent percent-encoded. -/
theorem C37_vault_percent_encoded {s q : PyStr} (h : Vault.quote s = .ok q) :
    ∃ b, utf8Encode s = .ok b ∧ PercentEncoded b q := by
  unfold Vault.quote at h
  cases hb : utf8Encode s with
  | error e => rw [hb] at h; cases h
  | ok b =>
    rw [hb] at h
    cases h
    refine ⟨b, rfl, ?_⟩
    clear hb
    induction b with
    | nil => exact .nil
    | cons b bs ih =>
      rw [List.flatMap_cons]
      have hn : UInt8.ofNat b.toNat = b := UInt8.ofNat_toNat
      rcases quote_table b.toNat (UInt8.toNat_lt b) with ⟨h1, h2⟩ | ⟨h1, h2, h3, h4, h5⟩
      · rw [hn] at h2
        rw [h2]
        exact .plain h1 ih
      · rw [hn] at h2 h3 h4 h5
        match hq : Vault.quoteByte b, h3 with
        | [a, x, y], _ =>
          rw [hq] at h2 h4 h5
          simp only [List.getElem?_cons_zero, List.getElem?_cons_succ, Option.some.injEq] at h2 h4 h5
          subst h2
          exact .escaped h1 (Nat.div_add_mod b.toNat 16).symm h4.symm h5.symm ih

/-! ## C38 -/

/-- C38.  With associated data, a Vault AEAD raises `TinkError` and does not contact the server. -/
theorem C38_associated_data_rejected {σ : Type} (client : Vault.Transit σ) (m n : PyStr) (s : σ)
    (x : Bytes) {ad : Bytes} (h : ad ≠ []) :
    (Vault.vaultAead client m n).encrypt s x ad = (s, .error .tinkError) ∧
    (Vault.vaultAead client m n).decrypt s x ad = (s, .error .tinkError) := by
  simp [Vault.vaultAead, h, Vault.convertAll]

/-- C38.  Every failure, of the server or in decoding its answer, is a `TinkError`. -/
theorem C38_only_tink_errors {σ : Type} (client : Vault.Transit σ) (m n : PyStr) (s : σ)
    (x ad : Bytes) (e : Exc) :
    (((Vault.vaultAead client m n).encrypt s x ad).2 = .error e → e = .tinkError) ∧
    (((Vault.vaultAead client m n).decrypt s x ad).2 = .error e → e = .tinkError) := by
  have key : ∀ (s : σ) (r : Py Bytes), (s, Vault.convertAll r).2 = .error e → e = .tinkError := by
    intro s r h
    cases r with
    | ok b => cases h
    | error e' => cases h; rfl
  constructor
  · simp only [Vault.vaultAead]
    split
    · exact key _ _
    · exact key _ _
  · simp only [Vault.vaultAead]
    split
    · exact key _ _
    · split
      · exact key _ _
      · exact key _ _

theorem b64Char_lt (v : Nat) (h : v < 64) : (b64Char v).toNat < 128 := by
  have : ∀ v < 64, (b64Char v).toNat < 128 := by decide +kernel
  exact this v h

theorem b64encode_ascii (b : Bytes) : ∀ c ∈ b64encode b, c.toNat < 128 := by
  fun_induction b64encode b with
  | case1 => simp
  | case2 a =>
    have ha := a.toNat_lt
    simp only [List.mem_cons, List.not_mem_nil, or_false]
    rintro c (rfl | rfl | rfl | rfl)
    · exact b64Char_lt _ (by omega)
    · exact b64Char_lt _ (by omega)
    · decide
    · decide
  | case3 a b =>
    have ha := a.toNat_lt
    have hb := b.toNat_lt
    simp only [List.mem_cons, List.not_mem_nil, or_false]
    rintro c (rfl | rfl | rfl | rfl)
    · exact b64Char_lt _ (by omega)
    · exact b64Char_lt _ (by omega)
    · exact b64Char_lt _ (by omega)
    · decide
  | case4 a b c r ih =>
    have ha := a.toNat_lt
    have hb := b.toNat_lt
    have hc := c.toNat_lt
    simp only [List.mem_cons]
    rintro x (rfl | rfl | rfl | rfl | h)
    · exact b64Char_lt _ (by omega)
    · exact b64Char_lt _ (by omega)
    · exact b64Char_lt _ (by omega)
    · exact b64Char_lt _ (by omega)
    · exact ih x h

theorem b64decodeStr_encode (b : Bytes) :
    Vault.b64decodeStr (Vault.asciiDecode (b64encode b)) = .ok b := by
  unfold Vault.b64decodeStr Vault.asciiDecode
  rw [if_pos, List.map_map]
  · have : (UInt8.ofNat ∘ UInt8.toNat) = id := by
      funext x; simp
    rw [this, List.map_id, b64decode_encode]
  · simp only [List.all_map, List.all_eq_true, Function.comp, decide_eq_true_eq]
    exact b64encode_ascii b

/-- C38.  If the server, in the state in which it is asked, decrypts what it encrypted under this
mount and name, then decryption returns the plaintext, for all byte strings. -/
theorem C38_round_trip {σ : Type} {client : Vault.Transit σ} {m n : PyStr} {s s' s2 : σ}
    {pt ct : Bytes} (h : (Vault.vaultAead client m n).encrypt s pt [] = (s', .ok ct))
    (hserver : ∀ p c, client.encryptData s n p [] m = (s', .ok c) →
      (client.decryptData s2 n c [] m).2 = .ok p) :
    ((Vault.vaultAead client m n).decrypt s2 ct []).2 = .ok pt := by
  obtain ⟨enc, dec⟩ := client
  simp only [Vault.vaultAead, ne_eq, not_true_eq_false, if_false] at h hserver ⊢
  cases hx : enc s n (Vault.asciiDecode (b64encode pt)) [] m with
  | mk s1 x =>
    rw [hx] at h
    cases x with
    | error e => cases h
    | ok c =>
      simp only [bind, Except.bind] at h
      cases hc : utf8Encode c with
      | error e => rw [hc] at h; cases h
      | ok b =>
        rw [hc] at h
        cases h
        rw [utf8Decode_encode c _ hc]
        have := hserver _ _ hx
        cases hy : dec s2 n c [] m with
        | mk s3 y =>
          rw [hy] at this
          simp only at this
          subst this
          simp only [hy, bind, Except.bind, b64decodeStr_encode, Vault.convertAll]

namespace KmsExample

/-- A client that supports one URI. -/
def only (uri : PyStr) (n : Nat) : KmsClient Nat :=
  { doesSupport := fun u => .ok (decide (u = uri)), getAead := fun _ => .ok n }

example : (do
    let c ← kmsClientFromUri (kmsHistory [.register (only (py! "b") 0), .reset,
      .register (only (py! "a") 1), .register (only (py! "b") 2), .register (only (py! "b") 3)])
      (py! "b")
    c.getAead (py! "b") : Py Nat) = .ok 2 := by decide

example : SinceReset [.register (only (py! "b") 0), .reset, .register (only (py! "a") 1)]
    [.register (only (py! "b") 0), .reset] [.register (only (py! "a") 1)] :=
  ⟨rfl, .inr ⟨[_], rfl⟩, by simp⟩

example : Aws.encryptionContext [0xAB, 1] = [(py! "associatedData", py! "ab01")] := by decide
example : AwsKeyUri (py! "aws-kms://arn:aws:kms:us-east-2:1:key/2") (py! "us-east-2") (py! "1:key/2") :=
  ⟨rfl, by simp, by decide⟩
example : GcpKeyName (py! "projects/a b/locations/l/keyRings/r/cryptoKeys/k")
    (py! "a b") (py! "l") (py! "r") (py! "k") :=
  ⟨rfl, by simp, by decide, ⟨by simp, by decide, by decide⟩, ⟨by simp, by decide, by decide⟩,
    ⟨by simp, by decide, by decide⟩⟩
example : VaultPath (py! "/teams/x/keys/k y") (py! "teams/x") (py! "k y") :=
  ⟨.inr rfl, ⟨[py! "teams", py! "x"], by simp, by
    intro s hs
    simp at hs
    rcases hs with rfl | rfl <;> exact ⟨by simp, by decide⟩, rfl⟩, ⟨by simp, by decide⟩⟩
example : Vault.quote (py! "k y") = .ok (py! "k%20y") := by decide
example : PercentEncoded [0xC3, 0xA4, 0x2F] (py! "%C3%A4/") := by
  obtain ⟨b, h1, h2⟩ := C37_vault_percent_encoded (s := [0xE4, 0x2F]) (q := py! "%C3%A4/")
    (by decide +kernel)
  rwa [show b = [0xC3, 0xA4, 0x2F] from (Except.ok.inj h1).symm.trans (by decide +kernel)] at h2

/-- A Vault server that stores nothing and adds a prefix. -/
def transit : Vault.Transit Nat where
  encryptData s _ p _ _ := (s + 1, .ok (py! "vault:v1:" ++ p))
  decryptData s _ c _ _ := (s + 1, .ok (c.drop 9))

example : (Vault.vaultAead transit [] []).encrypt 0 [1] [] = (1, .ok (by! "vault:v1:AQ==")) := by
  decide +kernel
example : ((Vault.vaultAead transit [] []).decrypt 5 (by! "vault:v1:AQ==") []).2 = .ok [1] :=
  C38_round_trip (s := 0) (s' := 1) (by decide +kernel) (by
    intro p c h; cases h; simp [transit])

end KmsExample
end Tink.Props
