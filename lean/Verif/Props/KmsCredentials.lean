import Verif.Kms.CredentialLemmas

/-!
# C106: which credentials are used for a key in a KMS
-/

namespace Tink.Props
open Spec
variable {σ κ : Type}

/-! ## AWS -/

/-- C106.  An `AwsKmsClient` is made if and only if the key URI is well formed (or there is none) and there is
no path of a credentials file, or the file has both options in its section `default`. -/
theorem C106_aws_accepted (boto3 : Option (PyStr × PyStr) → PyStr → Aws.Boto σ) (read : PyStr → Py Aws.Config)
    (keyUri path : Option PyStr) :
    (∃ c, Aws.AwsKmsClient.new boto3 read keyUri path = .ok c) ↔
      (keyUri = none ∨ keyUri = some [] ∨ ∃ uri region rest, keyUri = some uri ∧ AwsKeyUri uri region rest) ∧
      ∃ creds, AwsCredentials read path creds := by
  have key : ∀ creds, (∃ c, Aws.AwsKmsClient.create (boto3 creds) keyUri = .ok c) ↔
      (keyUri = none ∨ keyUri = some [] ∨ ∃ uri region rest, keyUri = some uri ∧ AwsKeyUri uri region rest) := by
    intro creds
    rw [← (C37_aws_create (boto3 creds []) keyUri).1]
    unfold Aws.AwsKmsClient.create Aws.newClient
    cases Aws.initKeyUri keyUri with
    | ok b => exact ⟨fun _ => ⟨_, rfl⟩, fun _ => ⟨_, rfl⟩⟩
    | error e => exact ⟨fun ⟨_, h⟩ => (nomatch h), fun ⟨_, h⟩ => (nomatch h)⟩
  constructor
  · rintro ⟨c, hc⟩
    obtain ⟨creds, hcr, hc⟩ := awsNew_ok.1 hc
    exact ⟨(key creds).1 ⟨c, hc⟩, creds, hcr⟩
  · rintro ⟨hk, creds, hcr⟩
    obtain ⟨c, hc⟩ := (key creds).2 hk
    exact ⟨c, awsNew_ok.2 ⟨creds, hcr, hc⟩⟩

/-- C106.  A bad key URI is a `TinkError`, whatever the file.  Otherwise, what is missing in the file is a
`ValueError`; exceptions of reading it are passed on. -/
theorem C106_aws_errors (boto3 : Option (PyStr × PyStr) → PyStr → Aws.Boto σ) (read : PyStr → Py Aws.Config)
    (keyUri path : Option PyStr) {e : Exc} (h : Aws.AwsKmsClient.new boto3 read keyUri path = .error e) :
    (¬ (keyUri = none ∨ keyUri = some [] ∨ ∃ uri region rest, keyUri = some uri ∧ AwsKeyUri uri region rest) ∧
      e = .tinkError) ∨
    ((keyUri = none ∨ keyUri = some [] ∨ ∃ uri region rest, keyUri = some uri ∧ AwsKeyUri uri region rest) ∧
      ∃ p, path = some p ∧ p ≠ [] ∧
        (read p = .error e ∨ ∃ config, read p = .ok config ∧
          ((config (py! "default") = none ∧ e = .valueError) ∨ ∃ sect, config (py! "default") = some sect ∧
            ((sect (py! "aws_access_key_id") = none ∧ e = .valueError) ∨
              sect (py! "aws_access_key_id") = some (.error e) ∨
              ∃ id, sect (py! "aws_access_key_id") = some (.ok id) ∧
                ((sect (py! "aws_secret_access_key") = none ∧ e = .valueError) ∨
                  sect (py! "aws_secret_access_key") = some (.error e)))))) := by
  unfold Aws.AwsKmsClient.new at h
  have hk := (C37_aws_create (boto3 none []) keyUri)
  unfold Aws.newClient at hk
  cases hb : Aws.initKeyUri keyUri with
  | error e' =>
    rw [hb] at h hk
    cases h
    refine .inl ⟨fun hg => ?_, hk.2 _ rfl⟩
    obtain ⟨_, hc⟩ := hk.1.2 hg
    cases hc
  | ok b =>
    rw [hb] at h hk
    refine .inr ⟨hk.1.1 ⟨_, rfl⟩, ?_⟩
    dsimp only [bind, Except.bind] at h
    cases hi : Aws.initCredentials read path with
    | ok c => rw [hi] at h; cases h
    | error e' =>
      rw [hi] at h
      cases h
      unfold Aws.initCredentials at hi
      cases path with
      | none => cases hi
      | some p =>
        dsimp only at hi
        split at hi
        · cases hi
        · rename_i hp
          refine ⟨p, rfl, hp, ?_⟩
          have hpc : Aws.parseConfig read p = .error e := by
            cases hq : Aws.parseConfig read p with
            | ok c => rw [hq] at hi; cases hi
            | error e' => rw [hq] at hi; cases hi; rfl
          clear hi
          unfold Aws.parseConfig at hpc
          cases hr : read p with
          | error e' => rw [hr] at hpc; cases hpc; exact .inl rfl
          | ok config =>
            rw [hr] at hpc
            refine .inr ⟨config, rfl, ?_⟩
            dsimp only [bind, Except.bind] at hpc
            cases hs : config (py! "default") with
            | none => rw [hs] at hpc; cases hpc; exact .inl ⟨rfl, rfl⟩
            | some sect =>
              rw [hs] at hpc
              refine .inr ⟨sect, rfl, ?_⟩
              dsimp only at hpc
              cases h1 : sect (py! "aws_access_key_id") with
              | none => rw [h1] at hpc; cases hpc; exact .inl ⟨rfl, rfl⟩
              | some x =>
                rw [h1] at hpc
                cases x with
                | error e' => cases hpc; exact .inr (.inl rfl)
                | ok id =>
                  refine .inr (.inr ⟨id, rfl, ?_⟩)
                  dsimp only at hpc
                  cases h2 : sect (py! "aws_secret_access_key") with
                  | none => rw [h2] at hpc; cases hpc; exact .inl ⟨rfl, rfl⟩
                  | some y =>
                    rw [h2] at hpc
                    cases y with
                    | error e' => cases hpc; exact .inr rfl
                    | ok s => cases hpc

/-- C106.  The AEAD of a key uses the credentials of the client and the region in the key URI. -/
theorem C106_aws_get_aead {boto3 : Option (PyStr × PyStr) → PyStr → Aws.Boto σ} {read : PyStr → Py Aws.Config}
    {keyUri path : Option PyStr} {c : KmsClient (RemoteAead σ)}
    (hc : Aws.AwsKmsClient.new boto3 read keyUri path = .ok c) {uri region rest : PyStr}
    (hu : AwsKeyUri uri region rest) (hr : 58 ∈ rest) (hb : BoundTo keyUri uri) :
    ∃ creds arn, AwsCredentials read path creds ∧ uri = py! "aws-kms://" ++ arn ∧
      c.doesSupport uri = .ok true ∧ c.getAead uri = .ok (Aws.awsKmsAead (boto3 creds region) arn) := by
  obtain ⟨creds, hcr, hc⟩ := awsNew_ok.1 hc
  rcases C37_aws_session_get_aead hc uri with ⟨region', rest', hu', _, hd, h⟩ | ⟨hn, _⟩
  · have hreg : ∀ {r : PyStr}, (∀ c ∈ r, (97 ≤ c ∧ c ≤ 122) ∨ (48 ≤ c ∧ c ≤ 57) ∨ c = 45) → 58 ∉ r := by
      intro r hr hm
      have := hr 58 hm
      omega
    have he : region ++ 58 :: rest = region' ++ 58 :: rest' := by
      have := hu.form.symm.trans hu'.form
      simpa using this
    have hrr : region = region' ∧ rest = rest' := by
      have := congrArg Aws.splitColon he
      rw [Aws.splitColon_append _ _ (hreg hu.chars), Aws.splitColon_append _ _ (hreg hu'.chars)] at this
      injection this with h1 _
      subst h1
      have := List.append_cancel_left he
      injection this with _ h2
      exact ⟨rfl, h2⟩
    obtain ⟨h1, h2⟩ := hrr
    subst h1 h2
    rcases h with ⟨_, arn, ha, hg⟩ | ⟨hn, _⟩
    · exact ⟨creds, arn, hcr, ha, hd, hg⟩
    · exact absurd hr hn
  · exact absurd ⟨hb, _, _, hu⟩ hn

/-! ## Google Cloud -/

/-- C106.  A `GcpKmsClient` is made if and only if the key URI has the scheme (or there is none), the
credentials can be loaded, if there is a path, and the library gives a client for them. -/
theorem C106_gcp_accepted (lib : Gcp.Library σ κ) (keyUri path : Option PyStr) :
    (∃ c, Gcp.GcpKmsClient.new lib keyUri path = .ok c) ↔
      (keyUri = none ∨ keyUri = some [] ∨ ∃ name, keyUri = some (py! "gcp-kms://" ++ name)) ∧
      ∃ client, GcpClientOf lib path client := by
  constructor
  · rintro ⟨c, hc⟩
    obtain ⟨client, hcl, hc⟩ := gcpNew_ok.1 hc
    exact ⟨(C37_gcp_create client keyUri).1.1 ⟨c, hc⟩, client, hcl⟩
  · rintro ⟨hk, client, hcl⟩
    obtain ⟨c, hc⟩ := (C37_gcp_create client keyUri).1.2 hk
    exact ⟨c, gcpNew_ok.2 ⟨client, hcl, hc⟩⟩

/-- C106.  A bad key URI is a `TinkError`, whatever the file; exceptions of the library are passed on. -/
theorem C106_gcp_errors (lib : Gcp.Library σ κ) (keyUri path : Option PyStr) {e : Exc}
    (h : Gcp.GcpKmsClient.new lib keyUri path = .error e) :
    (¬ (keyUri = none ∨ keyUri = some [] ∨ ∃ name, keyUri = some (py! "gcp-kms://" ++ name)) ∧ e = .tinkError) ∨
    ((keyUri = none ∨ keyUri = some [] ∨ ∃ name, keyUri = some (py! "gcp-kms://" ++ name)) ∧
      ((NoPath path ∧ lib.client none = .error e) ∨ ∃ p, path = some p ∧ p ≠ [] ∧
        (lib.load p = .error e ∨ ∃ credentials, lib.load p = .ok credentials ∧
          lib.client (some credentials) = .error e))) := by
  unfold Gcp.GcpKmsClient.new at h
  have hk : ∀ client : Gcp.ApiClient σ, _ := fun client => C37_gcp_create client keyUri
  unfold Gcp.GcpKmsClient.create at hk
  let d : Gcp.ApiClient σ := ⟨fun s _ _ _ => (s, .ok []), fun s _ _ _ => (s, .ok []), fun _ => false⟩
  have hk := hk d
  cases hb : Gcp.initKeyUri keyUri with
  | error e' =>
    rw [hb] at h hk
    cases h
    refine .inl ⟨fun hg => ?_, hk.2 _ rfl⟩
    obtain ⟨_, hc⟩ := hk.1.2 hg
    cases hc
  | ok b =>
    rw [hb] at h hk
    refine .inr ⟨hk.1.1 ⟨_, rfl⟩, ?_⟩
    dsimp only [bind, Except.bind] at h
    cases hi : Gcp.initClient lib path with
    | ok c => rw [hi] at h; cases h
    | error e' =>
      rw [hi] at h
      cases h
      unfold Gcp.initClient at hi
      dsimp only at hi
      split at hi
      · rename_i hp
        refine .inl ⟨?_, hi⟩
        cases path with
        | none => exact .inl rfl
        | some p => exact .inr (congrArg some hp)
      · rename_i hp
        cases path with
        | none => exact absurd rfl hp
        | some p =>
          refine .inr ⟨p, rfl, hp, ?_⟩
          dsimp only [Option.getD_some] at hi
          cases hl : lib.load p with
          | error e' => rw [hl] at hi; cases hi; exact .inl rfl
          | ok cr => rw [hl] at hi; exact .inr ⟨cr, rfl, hi⟩

/-- C106.  The AEAD of a key uses the client that was made with the credentials. -/
theorem C106_gcp_get_aead {lib : Gcp.Library σ κ} {keyUri path : Option PyStr} {c : KmsClient (RemoteAead σ)}
    (hc : Gcp.GcpKmsClient.new lib keyUri path = .ok c) {name p l r k : PyStr} (hn : GcpKeyName name p l r k)
    (hb : BoundTo keyUri (py! "gcp-kms://" ++ name)) :
    ∃ client, GcpClientOf lib path client ∧ c.doesSupport (py! "gcp-kms://" ++ name) = .ok true ∧
      c.getAead (py! "gcp-kms://" ++ name) = .ok (Gcp.gcpKmsAead client name) := by
  obtain ⟨client, hcl, hc⟩ := gcpNew_ok.1 hc
  rcases C37_gcp_get_aead hc (py! "gcp-kms://" ++ name) with ⟨name', he, _, hd, h⟩ | ⟨hno, _⟩
  · have := List.append_cancel_left he
    subst this
    rcases h with ⟨_, _, _, _, _, _, _, hg⟩ | ⟨hno, _⟩
    · exact ⟨client, hcl, hd, hg⟩
    · exact absurd ⟨_, _, _, _, _, hn, .inl rfl⟩ hno
  · exact absurd ⟨hb, _, rfl⟩ hno

/-! ## The list of clients -/

/-- C106.  `register_client` adds the client that the constructor makes at the end of the list; if the
constructor raises an exception, it is passed on and the list is as before. -/
theorem C106_register (boto3 : Option (PyStr × PyStr) → PyStr → Aws.Boto σ) (read : PyStr → Py Aws.Config)
    (lib : Gcp.Library σ κ) (keyUri path : Option PyStr) (cs : KmsClients (RemoteAead σ)) :
    ((∃ c, Aws.AwsKmsClient.new boto3 read keyUri path = .ok c ∧
        Aws.AwsKmsClient.registerClient boto3 read keyUri path cs = (cs ++ [c], .ok ())) ∨
      ∃ e, Aws.AwsKmsClient.new boto3 read keyUri path = .error e ∧
        Aws.AwsKmsClient.registerClient boto3 read keyUri path cs = (cs, .error e)) ∧
    ((∃ c, Gcp.GcpKmsClient.new lib keyUri path = .ok c ∧
        Gcp.GcpKmsClient.registerClient lib keyUri path cs = (cs ++ [c], .ok ())) ∨
      ∃ e, Gcp.GcpKmsClient.new lib keyUri path = .error e ∧
        Gcp.GcpKmsClient.registerClient lib keyUri path cs = (cs, .error e)) := by
  unfold Aws.AwsKmsClient.registerClient Gcp.GcpKmsClient.registerClient
  constructor
  · cases Aws.AwsKmsClient.new boto3 read keyUri path with
    | ok c => exact .inl ⟨c, rfl, rfl⟩
    | error e => exact .inr ⟨e, rfl, rfl⟩
  · cases Gcp.GcpKmsClient.new lib keyUri path with
    | ok c => exact .inl ⟨c, rfl, rfl⟩
    | error e => exact .inr ⟨e, rfl, rfl⟩

/-- The clients found and the AEADs made when the first call that registers for a URI is known. -/
theorem found {boto3 : Option (PyStr × PyStr) → PyStr → Aws.Boto σ} {h old before after : List (RegistryCall σ κ)}
    {x : RegistryCall σ κ} (hs : CallsSinceReset h old (before ++ x :: after)) {uri : PyStr}
    {c : KmsClient (RemoteAead σ)} (hc : clientOf boto3 x = some c) (hd : c.doesSupport uri = .ok true)
    (hb : ∀ y ∈ before, ∀ d, clientOf boto3 y = some d → d.doesSupport uri = .ok false) :
    kmsClientFromUri (registryHistory boto3 h) uri = .ok c := by
  rw [history_since hs, List.filterMap_append, List.filterMap_cons, hc]
  refine (kmsClientFromUri_ok _ _ _).2 ⟨_, _, rfl, fun d hm => ?_, hd⟩
  obtain ⟨y, hy, he⟩ := List.mem_filterMap.1 hm
  exact hb y hy d he

/-- C106.  After any history of calls, the AEAD found for an AWS key uses the credentials of the first call
since the last reset that registered a client for the key, as they were in the file at that call: failed calls,
those for other keys and all later ones have no effect. -/
theorem C106_aws_first {boto3 : Option (PyStr × PyStr) → PyStr → Aws.Boto σ}
    {h old before after : List (RegistryCall σ κ)} {x : RegistryCall σ κ}
    (hs : CallsSinceReset h old (before ++ x :: after)) {uri region rest : PyStr}
    (hu : AwsKeyUri uri region rest) (hr : 58 ∈ rest) {creds : Option (PyStr × PyStr)}
    (hx : RegistersAws uri x creds) (hb : ∀ y ∈ before, ∀ creds', ¬ RegistersAws uri y creds') :
    ∃ arn, uri = py! "aws-kms://" ++ arn ∧
      aeadFromUri (registryHistory boto3 h) uri = .ok (Aws.awsKmsAead (boto3 creds region) arn) := by
  obtain ⟨hbt, hcr⟩ := hx
  rename_i read keyUri path
  obtain ⟨c, hc⟩ := awsNew_bound (boto3 := boto3) hu hbt creds
  have hn : Aws.AwsKmsClient.new boto3 read keyUri path = .ok c := awsNew_ok.2 ⟨creds, hcr, hc⟩
  obtain ⟨creds', arn, hcr', ha, hd, hg⟩ := C106_aws_get_aead hn hu hr hbt
  have : creds' = creds := by
    have h1 := initCredentials_ok.2 hcr'
    rw [initCredentials_ok.2 hcr] at h1
    cases h1; rfl
  subst this
  refine ⟨arn, ha, ?_⟩
  unfold aeadFromUri
  rw [found hs (c := c) (by unfold clientOf; dsimp only; rw [hn]; rfl) hd
    (fun y hy d he => aws_others hu (hb y hy) he)]
  exact hg

/-- C106.  If no call since the last reset registered a client for an AWS key, `kms_client_from_uri` raises
`TinkError`. -/
theorem C106_aws_none {boto3 : Option (PyStr × PyStr) → PyStr → Aws.Boto σ} {h old recent : List (RegistryCall σ κ)}
    (hs : CallsSinceReset h old recent) {uri region rest : PyStr} (hu : AwsKeyUri uri region rest)
    (hb : ∀ y ∈ recent, ∀ creds, ¬ RegistersAws uri y creds) :
    kmsClientFromUri (registryHistory boto3 h) uri = .error .tinkError := by
  rw [history_since hs]
  refine (kmsClientFromUri_error _ _ _).2 (.inl ⟨rfl, fun d hm => ?_⟩)
  obtain ⟨y, hy, he⟩ := List.mem_filterMap.1 hm
  exact aws_others hu (hb y hy) he

/-- C106.  The same for GCP keys: the client of the first call that registered one for the key is used. -/
theorem C106_gcp_first {boto3 : Option (PyStr × PyStr) → PyStr → Aws.Boto σ}
    {h old before after : List (RegistryCall σ κ)} {x : RegistryCall σ κ}
    (hs : CallsSinceReset h old (before ++ x :: after)) {name p l r k : PyStr} (hn : GcpKeyName name p l r k)
    {client : Gcp.ApiClient σ} (hx : RegistersGcp (py! "gcp-kms://" ++ name) x client)
    (hb : ∀ y ∈ before, ∀ client', ¬ RegistersGcp (py! "gcp-kms://" ++ name) y client') :
    aeadFromUri (registryHistory boto3 h) (py! "gcp-kms://" ++ name) = .ok (Gcp.gcpKmsAead client name) := by
  obtain ⟨hbt, hcl⟩ := hx
  rename_i lib keyUri path
  have hk : keyUri = none ∨ keyUri = some [] ∨ ∃ name, keyUri = some (py! "gcp-kms://" ++ name) := by
    rcases hbt with h | h | h
    · exact .inl h
    · exact .inr (.inl h)
    · exact .inr (.inr ⟨_, h⟩)
  obtain ⟨c, hc⟩ := (C106_gcp_accepted lib keyUri path).2 ⟨hk, client, hcl⟩
  obtain ⟨client', hcl', hd, hg⟩ := C106_gcp_get_aead hc hn hbt
  have : client' = client := by
    have h1 := initClient_ok.2 hcl'
    rw [initClient_ok.2 hcl] at h1
    cases h1; rfl
  subst this
  unfold aeadFromUri
  rw [found hs (c := c) (by unfold clientOf; dsimp only; rw [hc]; rfl) hd
    (fun y hy d he => gcp_others rfl (hb y hy) he)]
  exact hg

/-- C106.  If no call since the last reset registered a client for a GCP key, `kms_client_from_uri` raises
`TinkError`. -/
theorem C106_gcp_none {boto3 : Option (PyStr × PyStr) → PyStr → Aws.Boto σ} {h old recent : List (RegistryCall σ κ)}
    (hs : CallsSinceReset h old recent) (name : PyStr)
    (hb : ∀ y ∈ recent, ∀ client, ¬ RegistersGcp (py! "gcp-kms://" ++ name) y client) :
    kmsClientFromUri (registryHistory boto3 h) (py! "gcp-kms://" ++ name) = .error .tinkError := by
  rw [history_since hs]
  refine (kmsClientFromUri_error _ _ _).2 (.inl ⟨rfl, fun d hm => ?_⟩)
  obtain ⟨y, hy, he⟩ := List.mem_filterMap.1 hm
  exact gcp_others rfl (hb y hy) he

/-! ## Examples -/

namespace KmsCredentialsExample

/-- A boto3 that remembers who called it, where. -/
def boto3 : Option (PyStr × PyStr) → PyStr → Aws.Boto (List (Option (PyStr × PyStr) × PyStr)) := fun creds region =>
  { encrypt := fun s _ pt _ => (s ++ [(creds, region)], .ok pt)
    decrypt := fun s _ ct _ => (s ++ [(creds, region)], .ok ct)
    isClientError := fun _ => false }

/-- Two files with credentials; other files do not exist. -/
def read : PyStr → Py Aws.Config := fun path =>
  .ok fun sect =>
    if sect = py! "default" ∧ (path = py! "a.ini" ∨ path = py! "b.ini") then
      some fun option =>
        if option = py! "aws_access_key_id" then some (.ok (py! "id of " ++ path))
        else if option = py! "aws_secret_access_key" then some (.ok (py! "secret of " ++ path))
        else none
    else none

def arn : PyStr := py! "arn:aws:kms:us-east-2:1:key/2"
def uri : PyStr := py! "aws-kms://" ++ arn

theorem uri_ok : AwsKeyUri uri (py! "us-east-2") (py! "1:key/2") := ⟨rfl, by decide, by decide⟩

theorem file (p : PyStr) (hp : p = py! "a.ini" ∨ p = py! "b.ini") :
    AwsCredentials read (some p) (some (py! "id of " ++ p, py! "secret of " ++ p)) := by
  have hr : ∃ config sect, read p = .ok config ∧ config (py! "default") = some sect ∧
      sect (py! "aws_access_key_id") = some (.ok (py! "id of " ++ p)) ∧
      sect (py! "aws_secret_access_key") = some (.ok (py! "secret of " ++ p)) := by
    rcases hp with rfl | rfl <;> exact ⟨_, _, rfl, rfl, rfl, rfl⟩
  obtain ⟨config, sect, h1, h2, h3, h4⟩ := hr
  exact .file rfl (by rcases hp with rfl | rfl <;> decide) ⟨config, sect, h1, h2, h3⟩ ⟨config, sect, h1, h2, h4⟩

/-- A file that does not exist, then one for the key, then another one. -/
def calls : List (RegistryCall (List (Option (PyStr × PyStr) × PyStr)) Unit) :=
  [.aws read none none, .reset, .aws read (some uri) (some (py! "none.ini")), .aws read (some uri) (some (py! "a.ini")),
    .aws read none (some (py! "b.ini"))]

/-- The credentials of the first file that exists are used. -/
example : ∃ a, aeadFromUri (registryHistory boto3 calls) uri = .ok a ∧
    (a.encrypt [] [1] []).1 = [(some (py! "id of a.ini", py! "secret of a.ini"), py! "us-east-2")] := by
  have hs : CallsSinceReset calls [.aws read none none, .reset]
      ([.aws read (some uri) (some (py! "none.ini"))] ++ .aws read (some uri) (some (py! "a.ini")) ::
        [.aws read none (some (py! "b.ini"))]) :=
    ⟨rfl, .inr ⟨[.aws read none none], rfl⟩, by simp⟩
  obtain ⟨arn, _, h⟩ := C106_aws_first (boto3 := boto3) hs uri_ok (by decide)
    (.mk (.inr (.inr rfl)) (file _ (.inl rfl))) (by
      intro y hy creds hr
      simp only [List.mem_singleton] at hy
      subst hy
      cases hr with
      | mk _ hc =>
        cases hc with
        | default hn => rcases hn with h | h <;> cases h
        | file hp _ h1 _ =>
          cases hp
          obtain ⟨_, _, hr, hs, _⟩ := h1
          cases hr
          cases hs)
  exact ⟨_, h, rfl⟩

/-- The constructor accepts the file `a.ini`, and raises `ValueError` for a file that does not exist. -/
example : (∃ c, Aws.AwsKmsClient.new boto3 read (some uri) (some (py! "a.ini")) = .ok c) ∧
    (match Aws.AwsKmsClient.new boto3 read (some uri) (some (py! "none.ini")) with
      | .ok _ => False
      | .error e => e = .valueError) := by
  refine ⟨(C106_aws_accepted boto3 read _ _).2 ⟨.inr (.inr ⟨_, _, _, rfl, uri_ok⟩), _, file _ (.inl rfl)⟩, ?_⟩
  rfl

/-- A Google library with one file of credentials and no default ones. -/
def lib : Gcp.Library (List PyStr) PyStr where
  load := fun p => if p = py! "key.json" then .ok (py! "me") else .error .osError
  client
    | none => .error (.other 7)
    | some who => .ok { encrypt := fun s _ pt _ => (s ++ [who], .ok pt)
                        decrypt := fun s _ ct _ => (s ++ [who], .ok ct)
                        isApiError := fun _ => false }

def gcpBoto3 : Option (PyStr × PyStr) → PyStr → Aws.Boto (List PyStr) := fun _ region =>
  { encrypt := fun s _ pt _ => (s ++ [region], .ok pt)
    decrypt := fun s _ ct _ => (s ++ [region], .ok ct)
    isClientError := fun _ => false }

def keyName : PyStr := py! "projects/p/locations/l/keyRings/r/cryptoKeys/k"

theorem keyName_ok : GcpKeyName keyName (py! "p") (py! "l") (py! "r") (py! "k") :=
  ⟨rfl, by decide, by decide, ⟨by decide, by decide, by decide⟩, ⟨by decide, by decide, by decide⟩,
    ⟨by decide, by decide, by decide⟩⟩

/-- The call without a path fails; the one with it is used. -/
example : ∃ a, aeadFromUri (registryHistory gcpBoto3 [.gcp lib none none, .aws read none none,
      .gcp lib none (some (py! "key.json"))]) (py! "gcp-kms://" ++ keyName) = .ok a ∧
    (a.encrypt [] [1] []).1 = [py! "me"] := by
  have hs : CallsSinceReset [.gcp lib none none, .aws read none none, .gcp lib none (some (py! "key.json"))] []
      ([.gcp lib none none, .aws read none none] ++ .gcp lib none (some (py! "key.json")) :: []) :=
    ⟨rfl, .inl rfl, by simp⟩
  have h := C106_gcp_first (boto3 := gcpBoto3) hs keyName_ok
    (.mk (.inl rfl) (.file rfl (by decide) rfl rfl)) (by
      intro y hy client hr
      simp only [List.mem_cons, List.not_mem_nil, or_false] at hy
      rcases hy with rfl | rfl
      · cases hr with
        | mk _ hc =>
          cases hc with
          | default _ h => cases h
          | file hp _ _ _ => cases hp
      · cases hr)
  exact ⟨_, h, rfl⟩

end KmsCredentialsExample
end Tink.Props
