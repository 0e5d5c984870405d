import Verif.Spec.Prompts
import Verif.Lemmas.Prompts
import Verif.Props.Ip
import Verif.Props.ClientApprove
import Verif.Props.ClientProxy
/-! # C79: the words on the screen determine what is approved -/
namespace Qos.Client
variable {S : Type}

/-! ## Prompts are told apart by their opening words -/

/-- The opening words of the prompts, and the reminder. -/
def openings : List (List Char) :=
  ["Is this the correct manifest schema version: ".toList, "Is this the correct namespace name: ".toList,
   "Is this the correct namespace nonce: ".toList, "Is this the correct pivot restart policy: ".toList,
   "Are these the correct pivot args:\n".toList, "Is this the correct pivot debug mode: ".toList,
   "Is this the correct pivot bridge configuration:\n".toList, "Is this the correct DNS configuration: absent? (y/n)".toList,
   "Is this the correct DNS configuration: configured with no resolvers? (y/n)".toList,
   "Are these the correct DNS resolvers:\n".toList, "Does this AWS IAM role belong to the intended organization: ".toList,
   "The following manifest set members approved:\n".toList, reminder]

/-- The opening words of a prompt. -/
def openingOf : Question → Fin 13
  | .schemaVersion _ => 0
  | .namespaceName _ => 1
  | .namespaceNonce _ => 2
  | .restartPolicy _ => 3
  | .pivotArgs _ => 4
  | .debugMode _ => 5
  | .bridges _ => 6
  | .dns none => 7
  | .dns (some ⟨[]⟩) => 8
  | .dns (some ⟨_ :: _⟩) => 9
  | .iamRole _ => 10
  | .approvers _ => 11

theorem openings_apart : ∀ i j : Fin 13, (openings.getD i []).isPrefixOf (openings.getD j []) = true → i = j := by decide +kernel

theorem opening_unique {i j : Fin 13} {x y : List Char} (h : openings.getD i [] ++ x = openings.getD j [] ++ y) : i = j := by
  have h1 : openings.getD i [] <+: openings.getD j [] ++ y := h ▸ List.prefix_append _ _
  rcases List.prefix_or_prefix_of_prefix h1 (List.prefix_append _ _) with h2 | h2
  · exact openings_apart i j (List.isPrefixOf_iff_prefix.mpr h2)
  · exact (openings_apart j i (List.isPrefixOf_iff_prefix.mpr h2)).symm

theorem prompt_opening (odd : Char → Bool) (q : Question) : ∃ r, promptText odd q = openings.getD (openingOf q) [] ++ r := by
  cases q with
  | dns d =>
    cases d with
    | none => exact ⟨[], (List.append_nil _).symm⟩
    | some d =>
      obtain ⟨rs⟩ := d
      cases rs with
      | nil => exact ⟨[], (List.append_nil _).symm⟩
      | cons r rs => exact ⟨_, rfl⟩
  | _ => exact ⟨_, rfl⟩

theorem prompt_not_reminder (odd : Char → Bool) (q : Question) : promptText odd q ≠ reminder := by
  intro h
  obtain ⟨r, hr⟩ := prompt_opening odd q
  have h2 : openings.getD (openingOf q) [] ++ r = openings.getD (12 : Fin 13) [] ++ [] := by
    rw [← hr, h, List.append_nil]
    rfl
  have h3 := opening_unique h2
  cases q with
  | dns d =>
    cases d with
    | none => cases h3
    | some d =>
      obtain ⟨rs⟩ := d
      cases rs <;> cases h3
  | _ => cases h3

theorem same_opening {odd : Char → Bool} {q q' : Question} (h : promptText odd q = promptText odd q') : openingOf q = openingOf q' := by
  obtain ⟨r, hr⟩ := prompt_opening odd q
  obtain ⟨r', hr'⟩ := prompt_opening odd q'
  rw [hr, hr'] at h
  exact opening_unique h

/-! ## Each prompt shows its value -/

theorem middle {a b c m n : List Char} (h : a ++ (m ++ c) = b ++ (n ++ c)) (hab : a = b) : m = n := by
  subst hab
  exact List.append_cancel_right (List.append_cancel_left h)

theorem display_mark : EndsAtMark fun i : IpAddr => (Ip.display i).toList := by
  intro a b c d x y hc hd h
  have hn : ∀ (i : IpAddr), ∀ k ∈ (Ip.display i).toList, ¬ (k = ',' ∨ k = ']') := by
    intro i k hk hm
    have h1 := Ip.denotes_chars (Ip.parse_iff.mp (Ip.parse_display i)) k hk
    rcases hm with rfl | rfl <;> exact absurd h1 (by decide)
  obtain ⟨h1, h2, h3⟩ := cut (P := fun k => k = ',' ∨ k = ']') (hn a) (hn b) hc hd h
  exact ⟨Ip.display_injective (String.toList_inj.mp h1), h2, h3⟩

theorem display_not_bracket (i : IpAddr) (x y : List Char) : (Ip.display i).toList ++ x ≠ ']' :: y := by
  intro h
  cases hl : (Ip.display i).toList with
  | nil =>
    have h1 := Ip.parse_display i
    have h2 : Ip.display i = "" := String.toList_inj.mp (by rw [hl]; rfl)
    rw [h2] at h1
    have h3 : Ip.parse "" = none := by decide +kernel
    rw [h3] at h1
    cases h1
  | cons k ks =>
    rw [hl] at h
    simp only [List.cons_append, List.cons.injEq] at h
    have h1 := Ip.denotes_chars (Ip.parse_iff.mp (Ip.parse_display i)) k (by rw [hl]; simp)
    rw [h.1] at h1
    exact absurd h1 (by decide)

theorem args_cancel (odd : Char → Bool) {a b : List String} {x y : List Char}
    (h : debugList (debugText odd) a ++ x = debugList (debugText odd) b ++ y) : a = b ∧ x = y :=
  debugList_cancel (EndsItself.mark (debugText_cancel odd)) (by intro s x y; simp [debugText]) h

theorem bridges_cancel (odd : Char → Bool) {a b : List BridgeConfig} {x y : List Char}
    (h : debugList (debugBridge odd) a ++ x = debugList (debugBridge odd) b ++ y) : a = b ∧ x = y := by
  refine debugList_cancel (EndsItself.mark (debugBridge_cancel odd)) ?_ h
  intro s x y
  have hs : "Server { port: ".toList = 'S' :: "erver { port: ".toList := by decide
  have hc : "Client { port: ".toList = 'C' :: "lient { port: ".toList := by decide
  cases s with
  | server p t =>
    rw [debugBridge_server]
    exact heads_differ (y := y) (s := []) hs rfl (by decide)
  | client p t =>
    rw [debugBridge_client]
    exact heads_differ (y := y) (s := []) hc rfl (by decide)

theorem approverRest_cancel : ∀ {as bs : List String}, (∀ a ∈ as, OneLine a) → (∀ b ∈ bs, OneLine b) →
    approverRest as ++ "\nIs this ok? (y/n)".toList = approverRest bs ++ "\nIs this ok? (y/n)".toList → as = bs := by
  have hI : "\nIs this ok? (y/n)".toList = '\n' :: 'I' :: "s this ok? (y/n)".toList := by decide
  have hA : "\n\talias: ".toList = '\n' :: '\t' :: "alias: ".toList := by decide
  have hd : ∀ as : List String, ∃ r, approverRest as ++ "\nIs this ok? (y/n)".toList = '\n' :: r := by
    intro as
    cases as with
    | nil => exact ⟨_, hI⟩
    | cons a as => exact ⟨'\t' :: ("alias: ".toList ++ (a.toList ++ approverRest as)) ++ "\nIs this ok? (y/n)".toList, by
        show (("\n\talias: ".toList ++ (a.toList ++ approverRest as)) ++ _) = _
        rw [hA]; rfl⟩
  intro as
  induction as with
  | nil =>
    intro bs _ _ h
    cases bs with
    | nil => rfl
    | cons b bs =>
      exfalso
      have h : [] ++ "\nIs this ok? (y/n)".toList = ("\n\talias: ".toList ++ (b.toList ++ approverRest bs)) ++ "\nIs this ok? (y/n)".toList := h
      rw [hA, hI] at h
      simp at h
  | cons a as ih =>
    intro bs ha hb h
    cases bs with
    | nil =>
      exfalso
      have h : ("\n\talias: ".toList ++ (a.toList ++ approverRest as)) ++ "\nIs this ok? (y/n)".toList = [] ++ "\nIs this ok? (y/n)".toList := h
      rw [hA, hI] at h
      simp at h
    | cons b bs =>
      have h : ("\n\talias: ".toList ++ (a.toList ++ approverRest as)) ++ "\nIs this ok? (y/n)".toList =
        ("\n\talias: ".toList ++ (b.toList ++ approverRest bs)) ++ "\nIs this ok? (y/n)".toList := h
      rw [List.append_assoc, List.append_assoc, List.append_assoc, List.append_assoc] at h
      have h := List.append_cancel_left h
      obtain ⟨r, hr⟩ := hd as
      obtain ⟨s, hs⟩ := hd bs
      rw [hr, hs] at h
      obtain ⟨h1, _, h2⟩ := cut (P := fun c => c = '\n') (fun c hc he => ha a (by simp) (he ▸ hc))
        (fun c hc he => hb b (by simp) (he ▸ hc)) rfl rfl h
      rw [h2, ← hs] at hr
      rw [String.toList_inj.mp h1, ih (fun a h => ha a (by simp [h])) (fun b h => hb b (by simp [h])) hr]

theorem approverLines_cancel {as bs : List String} (ha : ∀ a ∈ as, OneLine a) (hb : ∀ b ∈ bs, OneLine b)
    (h : approverLines as ++ "\nIs this ok? (y/n)".toList = approverLines bs ++ "\nIs this ok? (y/n)".toList) : as = bs := by
  have hA : "\talias: ".toList = '\t' :: "alias: ".toList := by decide
  have hN : "\n\talias: ".toList = '\n' :: "\talias: ".toList := by decide
  have hI : "\nIs this ok? (y/n)".toList = '\n' :: 'I' :: "s this ok? (y/n)".toList := by decide
  have link : ∀ (a : String) (as : List String), approverRest (a :: as) = '\n' :: approverLines (a :: as) := by
    intro a as
    show "\n\talias: ".toList ++ (a.toList ++ approverRest as) = '\n' :: ("\talias: ".toList ++ (a.toList ++ approverRest as))
    rw [hN]
    rfl
  cases as with
  | nil =>
    cases bs with
    | nil => rfl
    | cons b bs =>
      exfalso
      have h : [] ++ "\nIs this ok? (y/n)".toList = ("\talias: ".toList ++ (b.toList ++ approverRest bs)) ++ "\nIs this ok? (y/n)".toList := h
      rw [hA, hI] at h
      simp at h
  | cons a as =>
    cases bs with
    | nil =>
      exfalso
      have h : ("\talias: ".toList ++ (a.toList ++ approverRest as)) ++ "\nIs this ok? (y/n)".toList = [] ++ "\nIs this ok? (y/n)".toList := h
      rw [hA, hI] at h
      simp at h
    | cons b bs =>
      refine approverRest_cancel ha hb ?_
      rw [link, link, List.cons_append, List.cons_append, h]

/-- C79: a prompt shows its value: two prompts with the same text ask about the same thing, with the same value. For the
list of approvers the aliases must fit on a line. -/
theorem prompt_determines (odd : Char → Bool) (q q' : Question) (hq : Readable q) (hq' : Readable q')
    (h : promptText odd q = promptText odd q') : q = q' := by
  have ho := same_opening h
  cases q with
  | schemaVersion v =>
    cases q' with
    | schemaVersion w => rw [String.toList_inj.mp (middle h rfl)]
    | dns d =>
      rcases d with _ | ⟨_ | _⟩ <;> cases ho
    | _ => cases ho
  | namespaceName v =>
    cases q' with
    | namespaceName w => rw [String.toList_inj.mp (middle h rfl)]
    | dns d => rcases d with _ | ⟨_ | _⟩ <;> cases ho
    | _ => cases ho
  | namespaceNonce v =>
    cases q' with
    | namespaceNonce w => rw [UInt32.toNat_inj.mp (natText_injective (middle h rfl))]
    | dns d => rcases d with _ | ⟨_ | _⟩ <;> cases ho
    | _ => cases ho
  | restartPolicy v =>
    cases q' with
    | restartPolicy w =>
      have h1 : debugRestart v = debugRestart w := middle h rfl
      cases v <;> cases w <;> first | rfl | exact absurd h1 (by decide)
    | dns d => rcases d with _ | ⟨_ | _⟩ <;> cases ho
    | _ => cases ho
  | pivotArgs v =>
    cases q' with
    | pivotArgs w => rw [(args_cancel odd (List.append_cancel_left h)).1]
    | dns d => rcases d with _ | ⟨_ | _⟩ <;> cases ho
    | _ => cases ho
  | debugMode v =>
    cases q' with
    | debugMode w =>
      have h1 : (if v then "true" else "false").toList = (if w then "true" else "false").toList := middle h rfl
      cases v <;> cases w <;> first | rfl | exact absurd h1 (by decide)
    | dns d => rcases d with _ | ⟨_ | _⟩ <;> cases ho
    | _ => cases ho
  | bridges v =>
    cases q' with
    | bridges w => rw [(bridges_cancel odd (List.append_cancel_left h)).1]
    | dns d => rcases d with _ | ⟨_ | _⟩ <;> cases ho
    | _ => cases ho
  | dns v =>
    cases q' with
    | dns w =>
      rcases v with _ | ⟨_ | ⟨a, as⟩⟩ <;> rcases w with _ | ⟨_ | ⟨b, bs⟩⟩ <;> first | rfl | (cases ho; done) | skip
      rw [(debugList_cancel display_mark display_not_bracket (List.append_cancel_left h)).1]
    | _ => rcases v with _ | ⟨_ | ⟨a, as⟩⟩ <;> cases ho
  | iamRole v =>
    cases q' with
    | iamRole w => rw [String.toList_inj.mp (middle h rfl)]
    | dns d => rcases d with _ | ⟨_ | _⟩ <;> cases ho
    | _ => cases ho
  | approvers v =>
    cases q' with
    | approvers w => rw [approverLines_cancel hq hq' (List.append_cancel_left h)]
    | dns d => rcases d with _ | ⟨_ | _⟩ <;> cases ho
    | _ => cases ho

/-! ## The screen of a command -/

theorem questions_of_texts (odd : Char → Bool) : ∀ {qs qs' : List Question}, (∀ q ∈ qs, Readable q) → (∀ q ∈ qs', Readable q) →
    texts odd qs = texts odd qs' → qs = qs'
  | [], [], _, _, _ => rfl
  | [], _ :: _, _, _, h => by simp [texts] at h
  | _ :: _, [], _, _, h => by simp [texts] at h
  | q :: qs, q' :: qs', hq, hq', h => by
    simp only [texts, List.map_cons, List.cons.injEq] at h
    rw [prompt_determines odd q q' (hq q (by simp)) (hq' q' (by simp)) h.1,
      questions_of_texts odd (fun q h => hq q (by simp [h])) (fun q h => hq' q (by simp [h])) h.2]

theorem screen_append (odd : Char → Bool) : ∀ es fs : List Event, screen odd (es ++ fs) = screen odd es ++ screen odd fs
  | [], _ => rfl
  | .asked q as :: es, fs => by simp [screen, screen_append odd es fs]
  | .sent _ :: es, fs => by simp [screen, screen_append odd es fs]
  | .wrote _ _ :: es, fs => by simp [screen, screen_append odd es fs]

/-- Without the reminders, the screen of a completed review is the texts of its questions. -/
theorem screen_texts (odd : Char → Bool) : ∀ {qs : List Question} {es : List Event}, AllConfirmed qs es →
    (screen odd es).filter (fun t => decide (t ≠ reminder)) = texts odd qs
  | [], [], _ => rfl
  | [], _ :: _, h => by cases h
  | _ :: _, [], h => by cases h
  | q :: qs, e :: es, h => by
    cases h with
    | cons h1 h2 =>
      obtain ⟨ans, rfl, _⟩ := h1
      have hr : (List.replicate (ans.length - 1) reminder).filter (fun t => decide (t ≠ reminder)) = [] := by
        rw [List.filter_eq_nil_iff]
        intro t ht
        simp [List.eq_of_mem_replicate ht]
      simp only [screen, writesFor, texts, List.map_cons, List.cons_append, List.filter_append, List.filter_cons, hr,
        prompt_not_reminder odd q, ne_eq, not_false_eq_true, decide_true, if_true, List.nil_append]
      have := screen_texts odd h2
      simp only [ne_eq, texts] at this
      rw [this]

theorem struct_fields {α : Type} {deny : Bool} {f : Fields α} {v : Json} {a : α} (h : (JCodec.struct deny f).dec v = some a) :
    ∃ look, f.dec look = some a := by
  unfold JCodec.struct at h
  simp only at h
  split at h
  · unfold JCodec.decEntries at h
    split at h
    · split at h
      · cases h
      · exact ⟨_, h⟩
    · cases h
  · cases h

theorem both_fields {α β : Type} {f : Fields α} {g : Fields β} {look : String → Option Json} {x : α × β}
    (h : (Fields.both f g).dec look = some x) : f.dec look = some x.1 := by
  unfold Fields.both at h
  simp only at h
  split at h
  · rename_i a ha
    split at h
    · cases h; exact ha
    · cases h
  · cases h

/-- The version field of a manifest that was read. -/
theorem read_version {d : Disk} {path : String} {m : VersionedManifest} (h : ManifestIn d path m) : ∀ a, m = .v2 a → a.version = .v2 := by
  rintro a rfl
  obtain ⟨c, _, hc⟩ := h
  have key : ∀ v, JCodec.manifestV2.dec v = some a → a.version = .v2 := by
    intro v hv
    obtain ⟨look, hl⟩ := struct_fields hv
    simp only [Fields.imap, Option.map_eq_some_iff] at hl
    obtain ⟨x, hx, rfl⟩ := hl
    have hb := both_fields hx
    simp only [Fields.req, JCodec.v2Version] at hb
    split at hb
    · split at hb
      · exact (Option.some.inj hb).symm
      · cases hb
    · cases hb
  unfold VersionedManifest.tryFromSliceCompat at hc
  by_cases hd : declaresVersion c = true
  · rw [if_pos hd] at hc
    obtain ⟨x, hx, hxa⟩ := Option.map_eq_some_iff.mp hc
    cases hxa
    unfold fromJsonSlice at hx
    split at hx
    · exact key _ hx
    · cases hx
  · rw [if_neg hd] at hc
    exfalso
    split at hc
    · cases hc
    · split at hc
      · cases hc
      · simp only [Borsh.decodeManifest, Borsh.decodeBorsh] at hc
        split at hc <;> cases hc

/-- What a run of `approve-manifest` that writes an approval has shown. -/
theorem approve_shown (C : Setting S) (pair : P256.Pair) (a : ApproveArgs) (input : List String) (s : S)
    (hc : a.autoConfirm = false) (path : String) (contents : Bytes)
    (h : .wrote path contents ∈ (approveManifest C pair a input s).events) :
    ∃ m es, ManifestIn C.disk a.manifestPath m ∧ LocalMatch C.prims C.awsRoot C.disk a.places m ∧
      AllConfirmed (approveQuestions m) es ∧ (approveManifest C pair a input s).events = es ++ [.wrote path contents] ∧
      contents = approvalBytes (signApproval C.prims pair a.memberAlias (m.hash C.prims)) := by
  unfold approveManifest at h ⊢
  rcases Run.lift_cases (approveChecks C a) _ s with ⟨e, he, hr⟩ | ⟨m, hm, hr⟩
  · rw [hr] at h
    cases h
  · rw [hr] at h ⊢
    obtain ⟨h1, h2⟩ := (approveChecks_iff C a m).mp hm
    rw [confirm_bind, if_neg (by simp [hc])] at h ⊢
    by_cases hi : (interview (approveQuestions m) input).1 = true
    · rw [if_pos hi] at h ⊢
      unfold write at h ⊢
      by_cases hw : C.disk.writable (pathJoin a.approvalsDir (approvalName a.memberAlias m)) = true
      · rw [if_pos hw] at h ⊢
        simp only [List.mem_append, List.mem_singleton, Event.wrote.injEq] at h
        rcases h with h | ⟨rfl, rfl⟩
        · exact absurd h (not_wrote_interview _ _ _ _)
        · exact ⟨m, _, h1, h2, interview_confirmed _ _ hi, rfl, rfl⟩
      · rw [if_neg hw] at h
        simp only [List.append_nil] at h
        exact absurd h (not_wrote_interview _ _ _ _)
    · rw [if_neg hi] at h
      exact absurd h (not_wrote_interview _ _ _ _)

theorem approve_readable (m : VersionedManifest) : ∀ q ∈ approveQuestions m, Readable q := by
  have hd : ∀ q ∈ dnsQuestions m, Readable q := by
    cases m with
    | v2 v =>
      intro q hq
      simp only [dnsQuestions, List.mem_singleton] at hq
      subst hq
      trivial
    | _ => intro q hq; cases hq
  intro q hq
  unfold approveQuestions at hq
  rcases List.mem_append.mp hq with hq | hq
  · simp only [List.mem_cons, List.not_mem_nil, or_false] at hq
    rcases hq with rfl | rfl | rfl | rfl | rfl | rfl | rfl <;> trivial
  · exact hd q hq

/-- C79: the screen determines the approved manifest. If two runs of `approve-manifest`, with the same local files, show the
operator the same texts and write an approval, then the two approved manifests are the same, up to the pivot's environment
(which is never shown). Any table of unprintable characters, any answers, any key. -/
theorem same_screen_same_manifest (odd : Char → Bool) (C : Setting S) (pair pair' : P256.Pair) (a a' : ApproveArgs)
    (input input' : List String) (s s' : S) (hp : a.places = a'.places) (hc : a.autoConfirm = false) (hc' : a'.autoConfirm = false)
    (path path' : String) (contents contents' : Bytes)
    (h : .wrote path contents ∈ (approveManifest C pair a input s).events)
    (h' : .wrote path' contents' ∈ (approveManifest C pair' a' input' s').events)
    (hs : screen odd (approveManifest C pair a input s).events = screen odd (approveManifest C pair' a' input' s').events) :
    ∃ m m', ManifestIn C.disk a.manifestPath m ∧ ManifestIn C.disk a'.manifestPath m' ∧ SameButEnv m m' ∧
      contents = approvalBytes (signApproval C.prims pair a.memberAlias (m.hash C.prims)) ∧
      contents' = approvalBytes (signApproval C.prims pair' a'.memberAlias (m'.hash C.prims)) := by
  obtain ⟨m, es, h1, h2, h3, h4, h5⟩ := approve_shown C pair a input s hc path contents h
  obtain ⟨m', es', h1', h2', h3', h4', h5'⟩ := approve_shown C pair' a' input' s' hc' path' contents' h'
  rw [h4, h4', screen_append, screen_append] at hs
  simp only [screen, List.append_nil] at hs
  have ht := screen_texts odd h3
  rw [hs, screen_texts odd h3'] at ht
  have hq := questions_of_texts odd (approve_readable m') (approve_readable m) ht
  rw [← hp] at h2'
  exact ⟨m, m', h1, h1', covers_version _ _ _ _ m m' h2 h2' (read_version h1) (read_version h1') hq.symm, h5, h5'⟩

/-- What a run of `proxy-re-encrypt-share` that writes a file has shown. -/
theorem proxy_shown (C : Setting S) (pair : P256.Pair) (a : ProxyArgs) (input : List String) (s : S) (hc : a.autoConfirm = false)
    (path : String) (contents : Bytes) (h : .wrote path contents ∈ (proxyReEncryptShare C pair a input s).events) :
    ∃ x es ws, proxyChecks C pair a = .ok x ∧ AllConfirmed (proxyQuestions x.envelope x.role) es ∧
      (proxyReEncryptShare C pair a input s).events = es ++ ws ∧ ∀ odd, screen odd ws = [] := by
  unfold proxyReEncryptShare at h ⊢
  rcases Run.lift_cases (proxyChecks C pair a) _ s with ⟨e, he, hr⟩ | ⟨x, hx, hr⟩
  · rw [hr] at h
    cases h
  · rw [hr] at h ⊢
    rw [confirm_bind, if_neg (by simp [hc])] at h ⊢
    by_cases hi : (interview (proxyQuestions x.envelope x.role) input).1 = true
    · rw [if_pos hi] at h ⊢
      rcases Run.lift_cases (reEncrypt C pair x.target x.encryptedShare) _ s with ⟨e, he, hr'⟩ | ⟨w, hw, hr'⟩
      · rw [hr'] at h
        simp only [List.append_nil] at h
        exact absurd h (not_wrote_interview _ _ _ _)
      · rw [hr', write_bind] at h ⊢
        refine ⟨x, _, _, hx, interview_confirmed _ _ hi, rfl, ?_⟩
        intro odd
        unfold write
        by_cases hw1 : C.disk.writable a.approvalPath = true
        · rw [if_pos hw1]
          by_cases hw2 : C.disk.writable a.wrappedPath = true
          · rw [if_pos hw2]; rfl
          · rw [if_neg hw2]; rfl
        · rw [if_neg hw1]; rfl
    · rw [if_neg hi] at h
      exact absurd h (not_wrote_interview _ _ _ _)

/-- C79: the same for `proxy-re-encrypt-share`: two runs that show the same texts and hand over a share agree in the namespace,
the nonce, the role and the approvers, whose aliases fit on a line. -/
theorem same_screen_same_share (odd : Char → Bool) (C : Setting S) (pair pair' : P256.Pair) (a a' : ProxyArgs)
    (input input' : List String) (s s' : S) (hc : a.autoConfirm = false) (hc' : a'.autoConfirm = false)
    (path path' : String) (contents contents' : Bytes)
    (h : .wrote path contents ∈ (proxyReEncryptShare C pair a input s).events)
    (h' : .wrote path' contents' ∈ (proxyReEncryptShare C pair' a' input' s').events)
    (hs : screen odd (proxyReEncryptShare C pair a input s).events = screen odd (proxyReEncryptShare C pair' a' input' s').events) :
    ∃ e e' role, EnvelopeIn C.disk a.envelopePath e ∧ EnvelopeIn C.disk a'.envelopePath e' ∧
      RoleIn C.disk a.pcr3Path role ∧ RoleIn C.disk a'.pcr3Path role ∧
      e.manifest.namespaceOf.name = e'.manifest.namespaceOf.name ∧ e.manifest.namespaceOf.nonce = e'.manifest.namespaceOf.nonce ∧
      ((∀ x ∈ e.manifestSetApprovals, OneLine x.member.aliasName) → (∀ x ∈ e'.manifestSetApprovals, OneLine x.member.aliasName) →
        (e.manifestSetApprovals.map (·.member.aliasName)).Perm (e'.manifestSetApprovals.map (·.member.aliasName))) := by
  obtain ⟨x, es, ws, hx, h1, h2, h3⟩ := proxy_shown C pair a input s hc path contents h
  obtain ⟨x', es', ws', hx', h1', h2', h3'⟩ := proxy_shown C pair' a' input' s' hc' path' contents' h'
  rw [h2, h2', screen_append, screen_append, h3, h3', List.append_nil, List.append_nil] at hs
  have ht := screen_texts odd h1
  rw [hs, screen_texts odd h1'] at ht
  have files : ∀ {pair : P256.Pair} {a : ProxyArgs} {x : ProxyChecked}, proxyChecks C pair a = .ok x →
      EnvelopeIn C.disk a.envelopePath x.envelope ∧ RoleIn C.disk a.pcr3Path x.role := by
    intro pair a x hx
    unfold proxyChecks at hx
    simp only [ebind_ok, epure_ok] at hx
    obtain ⟨e, he, doc, _, share, _, role, hr, _, _, t, _, ms, _, _, _, rfl⟩ := hx
    exact ⟨readEnvelope_iff.mp he, (role_exact _ _ _).mp hr⟩
  have head : ∀ q q', Readable q → Readable q' → promptText odd q = promptText odd q' → q = q' := prompt_determines odd
  simp only [texts, proxyQuestions, List.map_cons, List.map_nil, List.cons.injEq, and_true] at ht
  obtain ⟨t1, t2, t3, t4⟩ := ht
  have q1 := head (.namespaceName x'.envelope.manifest.namespaceOf.name) (.namespaceName x.envelope.manifest.namespaceOf.name) trivial trivial t1
  have q2 := head (.namespaceNonce x'.envelope.manifest.namespaceOf.nonce) (.namespaceNonce x.envelope.manifest.namespaceOf.nonce) trivial trivial t2
  have q3 := head (.iamRole x'.role) (.iamRole x.role) trivial trivial t3
  simp only [Question.namespaceName.injEq] at q1
  simp only [Question.namespaceNonce.injEq] at q2
  simp only [Question.iamRole.injEq] at q3
  refine ⟨x.envelope, x'.envelope, x.role, (files hx).1, (files hx').1, (files hx).2, q3 ▸ (files hx').2, q1.symm, q2.symm, ?_⟩
  intro ha ha'
  have lines : ∀ as : List Approval, (∀ y ∈ as, OneLine y.member.aliasName) → Readable (.approvers (sortedAliases as)) := by
    intro as has b hb
    obtain ⟨y, hy, rfl⟩ := List.mem_map.mp ((List.perm_insertionSort _ _).mem_iff.mp hb)
    exact has y hy
  have q4 := head _ _ (lines _ ha') (lines _ ha) t4
  simp only [Question.approvers.injEq] at q4
  have p1 := List.perm_insertionSort (fun a b => bytesLe (utf8 a) (utf8 b) = true) (x.envelope.manifestSetApprovals.map (·.member.aliasName))
  have p2 := List.perm_insertionSort (fun a b => bytesLe (utf8 a) (utf8 b) = true) (x'.envelope.manifestSetApprovals.map (·.member.aliasName))
  unfold sortedAliases at q4
  rw [q4] at p2
  exact p1.symm.trans p2

/-! ## What is not escaped -/

theorem no_newline_in_debug (odd : Char → Bool) (s : String) : '\n' ∉ debugText odd s := by
  have hc : ∀ c, '\n' ∉ debugChar odd c := by
    intro c hm
    rcases debugChar_shape odd c with ⟨k, hk, hs⟩ | hk | ⟨hk, _, _, h4⟩ <;> rw [hk] at hm
    · simp only [List.mem_cons, List.not_mem_nil, or_false] at hm
      rcases hm with hm | hm
      · exact absurd hm (by decide)
      · rw [← hm] at hs
        exact absurd hs (by simp [shortEscape])
    · unfold unicodeEscape at hm
      simp only [List.mem_cons, List.mem_append, List.mem_map, List.not_mem_nil, or_false] at hm
      rcases hm with hm | hm | hm | ⟨n, hn, hm⟩ | hm
      · exact absurd hm (by decide)
      · exact absurd hm (by decide)
      · exact absurd hm (by decide)
      · exact hexChar_no_newline (digits_small _ n hn) hm
      · exact absurd hm (by decide)
    · simp only [List.mem_singleton] at hm
      exact h4 hm.symm
  unfold debugText
  simp only [List.mem_cons, List.mem_append, List.mem_flatMap, List.not_mem_nil, or_false, not_or, not_exists, not_and]
  exact ⟨by decide, fun c _ => hc c, by decide⟩

/-- C79: an argument of the pivot cannot break out of its line: it is shown in quotes, with line breaks escaped. -/
theorem args_on_one_line (odd : Char → Bool) (args : List String) : '\n' ∉ debugList (debugText odd) args := by
  have hr : ∀ as : List String, '\n' ∉ debugRest (debugText odd) as := by
    intro as
    induction as with
    | nil => simp [debugRest]
    | cons a as ih =>
      simp only [debugRest, List.mem_cons, List.mem_append, not_or]
      exact ⟨by decide, by decide, no_newline_in_debug odd a, ih⟩
  cases args with
  | nil => simp [debugList]
  | cons a as =>
    simp only [debugList, List.mem_cons, List.mem_append, not_or]
    exact ⟨by decide, no_newline_in_debug odd a, hr as⟩

def nameOpening : List Char := "Is this the correct namespace name: ".toList

def nonceOpening : List Char := "Is this the correct namespace nonce: ".toList

theorem name_prompt (odd : Char → Bool) (s : String) :
    promptText odd (.namespaceName s) = nameOpening ++ (s.toList ++ askEnd) := rfl

theorem nonce_prompt (odd : Char → Bool) (n : UInt32) :
    promptText odd (.namespaceNonce n) = nonceOpening ++ (natText n.toNat ++ askEnd) := rfl

theorem approvers_prompt (odd : Char → Bool) (as bs : List String) (h : approverLines as = approverLines bs) :
    promptText odd (.approvers as) = promptText odd (.approvers bs) := by
  exact congrArg (fun l => "The following manifest set members approved:\n".toList ++ (l ++ "\nIs this ok? (y/n)".toList)) h

theorem lines_one (a : String) : approverLines [a] = "\talias: ".toList ++ (a.toList ++ []) := rfl

theorem lines_two (a b : String) :
    approverLines [a, b] = "\talias: ".toList ++ (a.toList ++ ("\n\talias: ".toList ++ (b.toList ++ []))) := rfl

/-- C79: a namespace name is not escaped: one with a line break in it prints a prompt that reads like two prompts, the second
being a question of the program's own with a value of the author's choice. -/
theorem name_can_fake_a_prompt (odd : Char → Bool) (n : UInt32) (s : String) :
    ∃ name, promptText odd (.namespaceName name) =
      promptText odd (.namespaceName s) ++ '\n' :: promptText odd (.namespaceNonce n) := by
  have e : ∀ a b c d f g : List Char, a ++ ((b ++ (c ++ '\n' :: (d ++ f))) ++ g) = (a ++ (b ++ c)) ++ '\n' :: (d ++ (f ++ g)) := by
    intros
    simp
  refine ⟨String.ofList (s.toList ++ (askEnd ++ '\n' :: (nonceOpening ++ natText n.toNat))), ?_⟩
  rw [name_prompt, name_prompt, nonce_prompt, String.toList_ofList]
  exact e nameOpening s.toList askEnd nonceOpening (natText n.toNat) askEnd

/-- C79: the list of approvers is not escaped either: one alias with a line break reads like two approvers. -/
theorem alias_can_fake_an_approver (odd : Char → Bool) (a b : String) :
    ∃ x, promptText odd (.approvers [x]) = promptText odd (.approvers [a, b]) := by
  refine ⟨String.ofList (a.toList ++ ("\n\talias: ".toList ++ b.toList)), ?_⟩
  refine approvers_prompt odd _ _ ?_
  rw [lines_one, lines_two]
  have h := String.toList_ofList (l := a.toList ++ ("\n\talias: ".toList ++ b.toList))
  rw [List.append_nil, List.append_nil]
  exact congrArg (fun l => "\talias: ".toList ++ l) h

end Qos.Client
