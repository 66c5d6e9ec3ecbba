import Verif.Props.CheckTotal
import Verif.Props.CliBodyThm

/-!
# C07: whole sessions return
-/

namespace HL.Props

section
variable {env : Env} {kind : MsgKind}

/-- a recorded name was sent -/
theorem Settled.sent {s : Section} (hS : Settled env kind s) {n : Str} {v : Val} (hd : dget s.parsed n = some v) : ∃ q ∈ s.text, lower q.1 = n := by
  obtain ⟨q, hq, ⟨name, e, en⟩, _⟩ := hS.typed.ps (n, v) (dget_mem hd)
  dsimp only at en
  exact ⟨q, hq, by rw [en, ← strip_lower, e, strip_lower, hS.tidy q hq]⟩

theorem Settled.typedHeaders {m : Msg} (hS : Settled env m.kind m.headers) : TypedHeaders env m := typed_of_inv hS.typed hS.tidy

/-- perilous fields are not recorded -/
theorem Settled.unrecorded {s : Section} (hS : Settled env kind s) {n : Str} (hp : Perilous (classOf n)) (hn : lower n = n) : dget s.parsed n = none := by
  cases hd : dget s.parsed n with
  | none => rfl
  | some v =>
    obtain ⟨q, hq, e⟩ := hS.sent hd
    exact absurd (by rw [classOf_lower (e.trans hn.symm)]; exact hp) (hS.calm q hq)

theorem badPreflight_ok {s : Section} (hS : Settled env kind s) : ∀ fs, ∃ l, F.badPreflightHeaders s fs = .ok l
  | [] => ⟨_, rfl⟩
  | f :: fs => by
    obtain ⟨l, hl⟩ := badPreflight_ok hS fs
    unfold F.badPreflightHeaders
    split
    · rename_i hp
      rw [← dget_isSome] at hp
      obtain ⟨v, hv⟩ := Option.isSome_iff_exists.1 hp
      obtain ⟨q, hq, e⟩ := hS.sent hv
      have := hS.filed.all q hq
      rw [e, ← dget_isSome] at this
      obtain ⟨h, hh⟩ := Option.isSome_iff_exists.1 this
      rw [hh, hl]
      exact ⟨_, rfl⟩
    · exact ⟨l, hl⟩

theorem preflight_returns {c : Ctx} (hS : Settled c.env kind c.msg.headers) (add : AddNote) : Returns (F.checkPreflightResponse c add) := by
  have tail : Returns (match dget c.msg.headers.parsed (str "access-control-allow-origin") with
    | some (.str v) => W.when (v.contains 32 || v.contains 44) ((add.on (str "header-access-control-allow-origin")).add .ACAO_MULTIPLE_VALUES)
    | _ => pure () : W Unit) := by
    split
    · exact .when fun _ => .add ..
    · exact .pure _
  unfold F.checkPreflightResponse
  dsimp only
  refine .ite (fun _ => ?_) fun _ => ?_
  · exact .bind (.add ..) fun _ _ => tail
  · exact .bind (.lift (badPreflight_ok hS _)) fun _ _ => .bind (.when fun _ => .add ..) fun _ _ => tail

theorem endpoints_ok {c : Ctx} (hS : Settled c.env kind c.msg.headers) : F.endpointNames c = .ok [] := by
  unfold F.endpointNames
  rw [hS.unrecorded (by have : classOf (str "reporting-endpoints") = .reporting_endpoints_ := by decide +kernel
                        rw [this]; exact .inr (.inl rfl)) (by decide +kernel)]

theorem missing_returns {c : Ctx} (hC : Contract c.env) (vl : List Val) (vary : Val) (hvary : vary = .list vl) : ∀ is : List Val, (∀ i ∈ is, SfMember i) → Returns (F.accept_ch.missing c vary is)
  | [], _ => .pure _
  | i :: is, h => by
    obtain ⟨a, ha, hv⟩ := member_idx (h i List.mem_cons_self)
    obtain ⟨s, hs⟩ := hC.toStr hv
    unfold F.accept_ch.missing
    rw [ha, hvary]
    refine .bind ⟨_, rfl⟩ fun f hf => ?_
    cases hf
    refine .bind ⟨_, rfl⟩ fun p _ => ?_
    have ih := missing_returns hC vl (.list vl) rfl is fun j hj => h j (List.mem_cons_of_mem _ hj)
    split
    · exact .bind (.pure _) fun _ _ => .bind ih fun _ _ => .pure _
    · rw [hs]
      exact .bind ⟨_, rfl⟩ fun _ _ => .bind (.pure _) fun _ _ => .bind ih fun _ _ => .pure _

theorem appendW_ok {ns : List Note} {w : W Unit} (h : Returns w) : ∃ ns', appendW ns w = (ns', .ok ()) := by
  obtain ⟨u, hu⟩ := h
  exact ⟨_, by unfold appendW; rw [hu]⟩

theorem policy_returns {c : Ctx} (hS : Settled c.env kind c.msg.headers) (add ro n) {h : Handler} (hv : SfItem h.value) : Returns (F.tokenPolicyPostCheck c add ro n h) := by
  obtain ⟨a, p, _, h1, _, hp, _⟩ := item_idx hv
  obtain ⟨l, rfl, _⟩ := hp
  unfold F.tokenPolicyPostCheck
  rw [h1]
  refine .bind ⟨_, rfl⟩ fun ps hps => ?_
  cases hps
  rw [items_dict]
  refine .bind ⟨_, rfl⟩ fun is _ => ?_
  split
  · exact .pure _
  · refine .ite (fun _ => .pure _) fun _ => ?_
    rw [endpoints_ok hS]
    exact .bind ⟨_, rfl⟩ fun _ _ => .when fun _ => .add ..

/-- the `post_check` of a handler returns -/
theorem postCheck_returns {c : Ctx} (hC : Contract c.env) (hS : Settled c.env c.msg.kind c.msg.headers) (hca : c.msg.kind = .request → c.msg.caching = none)
    (add : AddNote) {h : Handler} (hd : Done h) (hn : h.value ≠ .none) (ns : List Note) : ∃ ns', h.postCheck c add ns = (ns', .ok ()) := by
  have hT := hS.typedHeaders
  have hsh : ∀ {f : FieldId} {t}, h.fid = f → f.info.kind = .sf t → f ≠ .accept_query_ → SfShape t h.value := by
    intro f t e1 e2 e3
    subst e1
    exact hd.ready.resolve_left hn t e2 e3
  have hst : F.storable c = true → c.msg.kind = .response := by
    intro hs
    cases hk : c.msg.kind with
    | response => rfl
    | request => unfold F.storable at hs; rw [hca hk] at hs; cases hs
  have csp : ∀ ro, ∃ ns', F.csp.postCheck c add ro h ns = (ns', .ok ()) := by
    intro ro
    unfold F.csp.postCheck F.csp.missingEndpoints
    rw [endpoints_ok hS]
    split
    · exact ⟨_, rfl⟩
    · exact ⟨_, rfl⟩
  unfold Handler.postCheck
  split
  · rename_i e
    refine appendW_ok ?_
    obtain ⟨l, hl, hm⟩ := shape_list (hsh e (t := str "list") rfl (by decide))
    unfold F.accept_ch.postCheck
    have tail : Returns (if F.storable c then do
        let vary := (dget c.msg.headers.parsed (str "vary")).getD (.list [])
        let items ← W.lift h.value.iter
        let missing ← F.accept_ch.missing c vary items
        W.when (!missing.isEmpty)
          (add.add .ACCEPT_CH_MISSING_VARY [(str "missing_fields", .str (join (str ", ") missing))])
      else pure () : W Unit) := by
      refine .ite (fun hs => ?_) fun _ => .pure _
      rw [hl]
      refine .bind ⟨_, rfl⟩ fun items hi => ?_
      cases hi
      refine .bind ?_ fun _ _ => .when fun _ => .add ..
      rcases vary_list hT (hst hs) with h | ⟨vl, h⟩ <;> rw [h]
      · exact missing_returns hC [] _ rfl l hm
      · exact missing_returns hC vl _ rfl l hm
    dsimp only
    split
    · exact .bind (.when fun _ => .add ..) fun _ _ => tail
    · exact tail
  · refine appendW_ok ?_
    unfold F.available_dictionary.postCheck
    refine .ite (fun _ => .pure _) fun hq => ?_
    have hk : c.msg.kind = .request := by
      unfold Ctx.isRequest at hq
      simpa using hq
    obtain ⟨l, hl, hx⟩ := codings_list hT hk (n := str "accept-encoding") (f := .accept_encoding_) (by decide +kernel) (.inl rfl)
    dsimp only
    rw [hl]
    refine .bind ⟨_, rfl⟩ fun items hi => ?_
    cases hi
    refine .bind (.lift ?_) fun _ _ => .when fun _ => .add ..
    clear hl
    induction l with
    | nil => exact ⟨_, rfl⟩
    | cons x l ih =>
      obtain ⟨s, d, rfl⟩ := hx x List.mem_cons_self
      obtain ⟨b, hb⟩ := ih fun y hy => hx y (List.mem_cons_of_mem _ hy)
      unfold F.available_dictionary.hasSupport
      rw [show (Val.tuple [.str s, .dict d]).unpack2 = .ok (.str s, .dict d) from rfl]
      dsimp only
      split
      · exact ⟨_, rfl⟩
      · exact ⟨b, hb⟩
  · refine appendW_ok ?_
    unfold F.content_encoding.postCheck
    refine .ite (fun _ => .pure _) fun hq => ?_
    dsimp only
    have : ∃ l, (dget c.msg.headers.parsed (str "content-encoding")).getD (.list []) = .list l := by
      rcases codings_recorded hT with h | ⟨l, h⟩ <;> rw [h] <;> exact ⟨_, rfl⟩
    obtain ⟨l, hl⟩ := this
    rw [hl]
    refine .bind ⟨_, rfl⟩ fun items _ => .ite (fun hs => ?_) fun _ => .pure _
    have hk := hst (Bool.and_eq_true_iff.1 hs).2
    rcases vary_list hT hk with h | ⟨vl, h⟩ <;> rw [h] <;> exact .bind ⟨_, rfl⟩ fun _ _ => .when fun _ => .add ..
  · exact csp _
  · exact csp _
  · rename_i e; exact appendW_ok (policy_returns hS _ _ _ (shape_item (hsh e (t := str "item") rfl (by decide))))
  · rename_i e; exact appendW_ok (policy_returns hS _ _ _ (shape_item (hsh e (t := str "item") rfl (by decide))))
  · rename_i e; exact appendW_ok (policy_returns hS _ _ _ (shape_item (hsh e (t := str "item") rfl (by decide))))
  · rename_i e; exact appendW_ok (policy_returns hS _ _ _ (shape_item (hsh e (t := str "item") rfl (by decide))))
  · rename_i e; exact absurd (by unfold Perilous; simp [e]) hd.calm
  · exact ⟨_, rfl⟩

theorem postHandlers_return (hC : Contract env) (related : Option Msg) (t : Bool) : ∀ (hs : List Handler) (m : Msg), Settled env m.kind m.headers →
    (m.kind = .request → m.caching = none) → (∀ h ∈ hs, Done h) →
    ∃ ns, postCheckHandlers env related t hs m = ({ m with notes := ns }, .ok ())
  | [], m, _, _, _ => ⟨m.notes, rfl⟩
  | h :: hs, m, hS, hca, hd => by
    unfold postCheckHandlers
    split
    · exact postHandlers_return hC related t hs m hS hca fun x hx => hd x (List.mem_cons_of_mem _ hx)
    · rename_i hn
      obtain ⟨ns', e⟩ := postCheck_returns (c := ⟨env, m, related⟩) hC hS hca (m.fieldAdder t h) (hd h List.mem_cons_self) hn m.notes
      rw [e]
      dsimp only
      obtain ⟨ns, e'⟩ := postHandlers_return hC related t hs { m with notes := ns' } hS hca fun x hx => hd x (List.mem_cons_of_mem _ hx)
      exact ⟨ns, e'⟩

end

end HL.Props
