import Verif.Spec.Credentials
import Verif.Props.KmsClients

/-!
# Lemmas about the credentials and the registration of KMS clients
-/

namespace Tink.Props
open Spec
variable {σ κ : Type}

theorem parseConfig_ok {read : PyStr → Py Aws.Config} {p id secret : PyStr} :
    Aws.parseConfig read p = .ok (id, secret) ↔
      DefaultOption read p (py! "aws_access_key_id") (.ok id) ∧
      DefaultOption read p (py! "aws_secret_access_key") (.ok secret) := by
  unfold Aws.parseConfig DefaultOption
  constructor
  · intro h
    obtain ⟨config, hr, h⟩ := bind_ok_iff.1 h
    cases hs : config (py! "default") with
    | none => rw [hs] at h; cases h
    | some sect =>
      rw [hs] at h
      dsimp only at h
      cases h1 : sect (py! "aws_access_key_id") with
      | none => rw [h1] at h; cases h
      | some x =>
        rw [h1] at h
        obtain ⟨i, hi, h⟩ := bind_ok_iff.1 h
        cases h2 : sect (py! "aws_secret_access_key") with
        | none => rw [h2] at h; cases h
        | some y =>
          rw [h2] at h
          obtain ⟨s, hy, h⟩ := bind_ok_iff.1 h
          cases h
          exact ⟨⟨config, sect, hr, hs, by rw [h1, hi]⟩, config, sect, hr, hs, by rw [h2, hy]⟩
  · rintro ⟨⟨config, sect, hr, hs, h1⟩, config', sect', hr', hs', h2⟩
    rw [hr] at hr'; cases hr'
    rw [hs] at hs'; cases hs'
    rw [hr]
    dsimp only [bind, Except.bind]
    rw [hs]; dsimp only
    rw [h1]; dsimp only
    rw [h2]; rfl

theorem initCredentials_ok {read : PyStr → Py Aws.Config} {path : Option PyStr} {creds : Option (PyStr × PyStr)} :
    Aws.initCredentials read path = .ok creds ↔ AwsCredentials read path creds := by
  unfold Aws.initCredentials
  constructor
  · intro h
    cases path with
    | none => cases h; exact .default (.inl rfl)
    | some p =>
      dsimp only at h
      split at h
      · rename_i hp; cases h; exact .default (.inr (by rw [hp]))
      · rename_i hp
        obtain ⟨⟨i, s⟩, hc, h⟩ := bind_ok_iff.1 h
        cases h
        obtain ⟨h1, h2⟩ := parseConfig_ok.1 hc
        exact .file rfl hp h1 h2
  · intro h
    cases h with
    | default hn => rcases hn with rfl | rfl <;> rfl
    | file hp hne h1 h2 =>
      subst hp
      dsimp only
      rw [if_neg hne, parseConfig_ok.2 ⟨h1, h2⟩]; rfl

theorem awsNew_ok {boto3 : Option (PyStr × PyStr) → PyStr → Aws.Boto σ} {read : PyStr → Py Aws.Config}
    {keyUri path : Option PyStr} {c : KmsClient (RemoteAead σ)} :
    Aws.AwsKmsClient.new boto3 read keyUri path = .ok c ↔
      ∃ creds, AwsCredentials read path creds ∧ Aws.AwsKmsClient.create (boto3 creds) keyUri = .ok c := by
  unfold Aws.AwsKmsClient.new Aws.AwsKmsClient.create
  constructor
  · intro h
    obtain ⟨b, hb, h⟩ := bind_ok_iff.1 h
    obtain ⟨creds, hc, h⟩ := bind_ok_iff.1 h
    exact ⟨creds, initCredentials_ok.1 hc, by rw [hb]; exact h⟩
  · rintro ⟨creds, hc, h⟩
    obtain ⟨b, hb, h⟩ := bind_ok_iff.1 h
    rw [hb]
    dsimp only [bind, Except.bind]
    rw [initCredentials_ok.2 hc]; exact h

theorem initClient_ok {lib : Gcp.Library σ κ} {path : Option PyStr} {client : Gcp.ApiClient σ} :
    Gcp.initClient lib path = .ok client ↔ GcpClientOf lib path client := by
  unfold Gcp.initClient
  constructor
  · intro h
    dsimp only at h
    split at h
    · rename_i hp
      refine .default ?_ h
      cases path with
      | none => exact .inl rfl
      | some p => exact .inr (congrArg some hp)
    · rename_i hp
      cases path with
      | none => exact absurd rfl hp
      | some p =>
        obtain ⟨cr, hl, h⟩ := bind_ok_iff.1 h
        exact .file rfl hp hl h
  · intro h
    cases h with
    | default hn hc => rcases hn with rfl | rfl <;> exact hc
    | file hp hne hl hc =>
      subst hp
      dsimp only [Option.getD_some]
      rw [if_neg hne, hl]; exact hc

theorem gcpNew_ok {lib : Gcp.Library σ κ} {keyUri path : Option PyStr} {c : KmsClient (RemoteAead σ)} :
    Gcp.GcpKmsClient.new lib keyUri path = .ok c ↔
      ∃ client, GcpClientOf lib path client ∧ Gcp.GcpKmsClient.create client keyUri = .ok c := by
  unfold Gcp.GcpKmsClient.new Gcp.GcpKmsClient.create
  constructor
  · intro h
    obtain ⟨b, hb, h⟩ := bind_ok_iff.1 h
    obtain ⟨client, hc, h⟩ := bind_ok_iff.1 h
    exact ⟨client, initClient_ok.1 hc, by rw [hb]; exact h⟩
  · rintro ⟨client, hc, h⟩
    obtain ⟨b, hb, h⟩ := bind_ok_iff.1 h
    rw [hb]
    dsimp only [bind, Except.bind]
    rw [initClient_ok.2 hc]; exact h

/-! ## Histories -/

/-- The client that a call registers. -/
def clientOf (boto3 : Option (PyStr × PyStr) → PyStr → Aws.Boto σ) :
    RegistryCall σ κ → Option (KmsClient (RemoteAead σ))
  | .aws read keyUri path => (Aws.AwsKmsClient.new boto3 read keyUri path).toOption
  | .gcp lib keyUri path => (Gcp.GcpKmsClient.new lib keyUri path).toOption
  | .reset => none

theorem run_eq (boto3 : Option (PyStr × PyStr) → PyStr → Aws.Boto σ) (cs : KmsClients (RemoteAead σ))
    {x : RegistryCall σ κ} (hx : x ≠ .reset) : RegistryCall.run boto3 cs x = cs ++ (clientOf boto3 x).toList := by
  cases x with
  | reset => exact absurd rfl hx
  | aws read keyUri path =>
    simp only [RegistryCall.run, Aws.AwsKmsClient.registerClient, clientOf]
    cases Aws.AwsKmsClient.new boto3 read keyUri path with
    | ok c => rfl
    | error e => simp [Except.toOption]
  | gcp lib keyUri path =>
    simp only [RegistryCall.run, Gcp.GcpKmsClient.registerClient, clientOf]
    cases Gcp.GcpKmsClient.new lib keyUri path with
    | ok c => rfl
    | error e => simp [Except.toOption]

theorem run_recent (boto3 : Option (PyStr × PyStr) → PyStr → Aws.Boto σ) (l : List (RegistryCall σ κ)) :
    ∀ cs, RegistryCall.reset ∉ l → l.foldl (RegistryCall.run boto3) cs = cs ++ l.filterMap (clientOf boto3) := by
  induction l with
  | nil => intro cs _; simp
  | cons x xs ih =>
    intro cs hx
    rw [List.foldl_cons, ih _ (fun h => hx (List.mem_cons_of_mem _ h)),
      run_eq boto3 cs (fun h => hx (by rw [h]; exact List.mem_cons_self)), List.filterMap_cons]
    cases clientOf boto3 x <;> simp

theorem history_since {boto3 : Option (PyStr × PyStr) → PyStr → Aws.Boto σ} {h old recent : List (RegistryCall σ κ)}
    (hs : CallsSinceReset h old recent) : registryHistory boto3 h = recent.filterMap (clientOf boto3) := by
  unfold registryHistory
  rw [hs.split, List.foldl_append, run_recent boto3 _ _ hs.recent]
  rcases hs.old with h | ⟨o, h⟩
  · rw [h]; rfl
  · rw [h, List.foldl_append]; rfl

/-- A URI of AWS is none of GCP. -/
theorem aws_not_gcp {uri region rest : PyStr} (h : AwsKeyUri uri region rest) (name : PyStr) :
    uri ≠ py! "gcp-kms://" ++ name := by
  intro e
  rw [h.form] at e
  have := congrArg List.head? e
  simp at this

theorem gcp_not_aws (name region rest : PyStr) : ¬ AwsKeyUri (py! "gcp-kms://" ++ name) region rest :=
  fun h => aws_not_gcp h name rfl

theorem awsNew_bound {boto3 : Option (PyStr × PyStr) → PyStr → Aws.Boto σ} {uri region rest : PyStr}
    (hu : AwsKeyUri uri region rest) {keyUri : Option PyStr} (hb : BoundTo keyUri uri)
    (creds : Option (PyStr × PyStr)) : ∃ c, Aws.AwsKmsClient.create (boto3 creds) keyUri = .ok c := by
  have : ∃ b, Aws.initKeyUri keyUri = .ok b := by
    rcases hb with rfl | rfl | rfl
    · exact ⟨_, rfl⟩
    · exact ⟨_, rfl⟩
    · unfold Aws.initKeyUri
      dsimp only
      split
      · exact ⟨_, rfl⟩
      · rw [(Aws.hasAwsKeyUriFormat_iff uri).2 ⟨_, _, hu⟩]; exact ⟨_, rfl⟩
  obtain ⟨b, hb⟩ := this
  unfold Aws.AwsKmsClient.create
  rw [hb]; exact ⟨_, rfl⟩

/-- The clients that do not register for an AWS key say so. -/
theorem aws_others {boto3 : Option (PyStr × PyStr) → PyStr → Aws.Boto σ} {uri region rest : PyStr}
    (hu : AwsKeyUri uri region rest) {x : RegistryCall σ κ} (hx : ∀ creds, ¬ RegistersAws uri x creds)
    {c : KmsClient (RemoteAead σ)} (hc : clientOf boto3 x = some c) : c.doesSupport uri = .ok false := by
  cases x with
  | reset => cases hc
  | aws read keyUri path =>
    have hc : Aws.AwsKmsClient.new boto3 read keyUri path = .ok c := by
      unfold clientOf at hc
      dsimp only at hc
      cases hn : Aws.AwsKmsClient.new boto3 read keyUri path with
      | ok c' => rw [hn] at hc; cases hc; rfl
      | error e => rw [hn] at hc; cases hc
    obtain ⟨creds, hcr, hc⟩ := awsNew_ok.1 hc
    rcases C37_aws_session_get_aead hc uri with ⟨_, _, _, hb, _⟩ | ⟨_, h, _⟩
    · exact absurd (.mk hb hcr) (hx creds)
    · exact h
  | gcp lib keyUri path =>
    have hc : Gcp.GcpKmsClient.new lib keyUri path = .ok c := by
      unfold clientOf at hc
      dsimp only at hc
      cases hn : Gcp.GcpKmsClient.new lib keyUri path with
      | ok c' => rw [hn] at hc; cases hc; rfl
      | error e => rw [hn] at hc; cases hc
    obtain ⟨client, _, hc⟩ := gcpNew_ok.1 hc
    rcases C37_gcp_get_aead hc uri with ⟨name, hn, _⟩ | ⟨_, h, _⟩
    · exact absurd hn (aws_not_gcp hu name)
    · exact h

/-- The clients that do not register for a GCP key say so. -/
theorem gcp_others {boto3 : Option (PyStr × PyStr) → PyStr → Aws.Boto σ} {uri name : PyStr}
    (hu : uri = py! "gcp-kms://" ++ name) {x : RegistryCall σ κ} (hx : ∀ client, ¬ RegistersGcp uri x client)
    {c : KmsClient (RemoteAead σ)} (hc : clientOf boto3 x = some c) : c.doesSupport uri = .ok false := by
  cases x with
  | reset => cases hc
  | aws read keyUri path =>
    have hc : Aws.AwsKmsClient.new boto3 read keyUri path = .ok c := by
      unfold clientOf at hc
      dsimp only at hc
      cases hn : Aws.AwsKmsClient.new boto3 read keyUri path with
      | ok c' => rw [hn] at hc; cases hc; rfl
      | error e => rw [hn] at hc; cases hc
    obtain ⟨creds, _, hc⟩ := awsNew_ok.1 hc
    rcases C37_aws_session_get_aead hc uri with ⟨_, _, h, _⟩ | ⟨_, h, _⟩
    · exact absurd hu (aws_not_gcp h name)
    · exact h
  | gcp lib keyUri path =>
    have hc : Gcp.GcpKmsClient.new lib keyUri path = .ok c := by
      unfold clientOf at hc
      dsimp only at hc
      cases hn : Gcp.GcpKmsClient.new lib keyUri path with
      | ok c' => rw [hn] at hc; cases hc; rfl
      | error e => rw [hn] at hc; cases hc
    obtain ⟨client, hcl, hc⟩ := gcpNew_ok.1 hc
    rcases C37_gcp_get_aead hc uri with ⟨_, _, hb, _⟩ | ⟨_, h, _⟩
    · exact absurd (.mk hb hcl) (hx client)
    · exact h

end Tink.Props
