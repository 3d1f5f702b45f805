import Verif.Oxm
import Verif.Conforms
import Verif.Relay
import Verif.Props.Switch

/-!
# Property C116: match fields select the packets that they name
-/

namespace Verif.Props

open Verif

/-- The packet has the value that a field names: exactly, or in the bits of its mask. -/
def Selects (x : XM) (p : Pkt) : Prop :=
  ∃ v, p x.cls.toNat x.type.toNat = some v ∧ v.length = x.value.length ∧
    ∀ i (h : i < v.length) (h' : i < x.value.length),
      if hm : i < x.mask.length then v[i] &&& x.mask[i] = x.value[i] &&& x.mask[i]
      else v[i] = x.value[i]

/-- The packet has the header field `f` of the basic class, `w` bytes wide, with the value `n`. -/
def HasField (p : Pkt) (f w n : Nat) : Prop :=
  ∃ v, p 0x8000 f = some v ∧ v.length = w ∧ getBE v = n

private theorem oxms_of (xs : List XM) (h : ∀ x ∈ xs, x.Valid) :
    Spec.oxms (xs.flatMap fun x => x.writeTo.out) = some (xs.map XM.said) :=
  oxmsFuel_of xs h _ (Nat.le_refl _)

private theorem andB_255 (v : Bytes) : andB v (List.replicate v.length 255) = v := by
  induction v with
  | nil => rfl
  | cons a v ih =>
    simp only [andB, List.length_cons, List.replicate_succ, List.zipWith_cons_cons] at ih ⊢
    rw [ih]
    congr 1
    apply UInt8.toNat_inj.1
    have := a.toNat_lt
    rw [UInt8.toNat_and, show (255 : UInt8).toNat = 2 ^ 8 - 1 from rfl, Nat.and_two_pow_sub_one_eq_mod]
    omega

private theorem hit_said (x : XM) (hv : x.Valid) (p : Pkt) : oxmHit p x.said = true ↔ Selects x p := by
  unfold oxmHit Selects
  simp only [XM.said, oxmMask]
  cases hp : p x.cls.toNat x.type.toNat with
  | none => simp
  | some v =>
    simp only [Bool.and_eq_true, beq_iff_eq, Option.some.injEq, exists_eq_left']
    refine and_congr_right fun hl => ?_
    by_cases hm : x.mask = []
    · simp only [hm, if_true, Option.getD_none, List.length_nil, Nat.not_lt_zero, dite_false]
      have hv' : andB v (List.replicate x.value.length 255) = v := by rw [← hl, andB_255]
      rw [andB_255, hv']
      constructor
      · rintro rfl i h h'; rfl
      · intro h; exact List.ext_getElem hl fun i h1 h2 => h i h1 h2
    · have hml : x.mask.length = x.value.length := hv.2.2.resolve_left hm
      simp only [hm, if_false, Option.getD_some, andB]
      constructor
      · intro h i h1 h2
        rw [dif_pos (by omega)]
        have h3 : i < (List.zipWith (· &&& ·) v x.mask).length := by simp; omega
        have := List.getElem_of_eq h h3
        simpa using this
      · intro h
        refine List.ext_getElem (by simp; omega) fun i h1 h2 => ?_
        simp only [List.length_zipWith] at h1 h2
        have := h i (by omega) (by omega)
        rw [dif_pos (by omega)] at this
        simpa using this

/-- C116.  A switch finds that match fields, as they were encoded, match a packet exactly if the
packet has all the values that they name. -/
theorem oxm_hit (o : Bytes → Bytes → Bool) (po gr : Bytes → List Nat) (xs : List XM)
    (h : ∀ x ∈ xs, x.Valid) (p : Pkt) :
    (oxmRules o po gr).hit (xs.flatMap fun x => x.writeTo.out) p = true ↔ ∀ x ∈ xs, Selects x p := by
  simp only [oxmRules, oxms_of xs h, List.all_eq_true, List.mem_map, forall_exists_index, and_imp,
    forall_apply_eq_imp_iff₂]
  exact ⟨fun g x hx => (hit_said x (h x hx) p).1 (g x hx), fun g x hx => (hit_said x (h x hx) p).2 (g x hx)⟩

private theorem selects_basic {α : Type} [Wire α] (t : UInt8) (v : α) (w n : Nat)
    (hb : be v = putBE w n) (hn : getBE (putBE w n) = n) (hw : (putBE w n).length = w) (p : Pkt) :
    Selects (basic t (bytesOf v) []) p ↔ HasField p t.toNat w n := by
  have hv : bytesOf v = putBE w n := by rw [← hb]; simp [bytesOf, Enc.writeTo, Enc.gather]
  unfold Selects HasField
  simp only [basic, hv, List.length_nil, Nat.not_lt_zero, dite_false, hw]
  refine exists_congr fun u => and_congr_right fun _ => and_congr_right fun hl => ?_
  constructor
  · intro h
    have : u = putBE w n := List.ext_getElem (by omega) fun i h1 h2 => h i h1 (by omega)
    rw [this, hn]
  · intro h i h1 h2
    have : u = putBE w n := by rw [← h, ← hl, putBE_getBE]
    simp [this]

/-- C116.  The helpers of ofputil/match.go name the header fields that they are called after, with
the widths of the specification: ingress port, Ethernet type, IP protocol, ICMPv6 type and IPv6
extension headers. -/
theorem oxm_helpers (p : Pkt) :
    (∀ n : UInt32, Selects (matchInPort n) p ↔ HasField p 0 4 n.toNat) ∧
    (∀ n : UInt16, Selects (matchEthType n) p ↔ HasField p 5 2 n.toNat) ∧
    (∀ n : UInt8, Selects (matchIPProto n) p ↔ HasField p 10 1 n.toNat) ∧
    (∀ n : UInt8, Selects (matchICMPv6Type n) p ↔ HasField p 29 1 n.toNat) ∧
    (∀ n : UInt16, Selects (matchIPv6ExtHeader n) p ↔ HasField p 39 2 n.toNat) := by
  refine ⟨fun n => selects_basic 0 n 4 _ rfl ((getBE_putBE 4 _).trans (Nat.mod_eq_of_lt ?_)) (by simp) p,
    fun n => selects_basic 5 n 2 _ rfl ((getBE_putBE 2 _).trans (Nat.mod_eq_of_lt ?_)) (by simp) p,
    fun n => selects_basic 10 n 1 _ rfl ((getBE_putBE 1 _).trans (Nat.mod_eq_of_lt ?_)) (by simp) p,
    fun n => selects_basic 29 n 1 _ rfl ((getBE_putBE 1 _).trans (Nat.mod_eq_of_lt ?_)) (by simp) p,
    fun n => selects_basic 39 n 2 _ rfl ((getBE_putBE 2 _).trans (Nat.mod_eq_of_lt ?_)) (by simp) p⟩
  · have := n.toNat_lt; omega
  · have := n.toNat_lt; omega
  · have := n.toNat_lt; omega
  · have := n.toNat_lt; omega
  · have := n.toNat_lt; omega

/-- C116.  What a flow entry does that is sent with a match of valid fields and a priority above
those of the others of its table: it handles exactly the packets that have all the values named;
the others are handled in that table as before, and all packets in the other tables. -/
theorem oxm_flow (f : FlowMod) (hv : f.mtch.Valid) (hm : f.mtch.type = 1)
    (hc : f.command = 0) (ht : f.table ≠ 255) (hf : f.flags.toNat / 2 % 2 = 0)
    (hl : 8 + f.writeTo.out.length ≤ 65535) (o : Bytes → Bytes → Bool) (po gr : Bytes → List Nat)
    (S : List SwEntry) (hS : ∀ e ∈ S, e.table = f.table.toNat → e.priority < f.priority.toNat) :
    ∃ msg S' new, ((requestOf 14 f.writeTo).writeTo recorder []).dst = [msg] ∧
      (oxmRules o po gr).flowMod msg S = .ok S' ∧
      new.instrs = f.instructions.flatMap (fun i => i.writeTo.out) ∧
      ∀ p, ((∀ x ∈ f.mtch.fields, Selects x p) →
          ∀ e, (oxmRules o po gr).Handles S' f.table.toNat p e ↔ e = new) ∧
        (¬(∀ x ∈ f.mtch.fields, Selects x p) →
          ∀ e, (oxmRules o po gr).Handles S' f.table.toNat p e ↔
            (oxmRules o po gr).Handles S f.table.toNat p e) ∧
        ∀ t, t ≠ f.table.toNat → ∀ e, (oxmRules o po gr).Handles S' t p e ↔
          (oxmRules o po gr).Handles S t p e := by
  obtain ⟨msg, h1, -, h3⟩ := switch_add f hv hm hc ht hf hl
  have h4 := h3 (oxmRules o po gr) S
  have hfil : ∀ e ∈ S, (!(e.table == f.table.toNat && e.priority == f.priority.toNat &&
      (oxmRules o po gr).same e.fields (f.mtch.fields.flatMap (fun x => x.writeTo.out)))) = true := by
    intro e he
    by_cases h : e.table = f.table.toNat
    · have := hS e he h
      have : (e.priority == f.priority.toNat) = false := by simp; omega
      simp [this]
    · simp [h]
  rw [List.filter_eq_self.2 hfil] at h4
  refine ⟨msg, _, ⟨f.table.toNat, f.priority.toNat, f.cookie.toNat,
    f.mtch.fields.flatMap (fun x => x.writeTo.out),
    f.instructions.flatMap (fun i => i.writeTo.out)⟩, h1, h4, rfl, fun p => ?_⟩
  have hh := oxm_hit o po gr f.mtch.fields hv.1 p
  refine ⟨fun hp e => ?_, fun hp e => ?_, fun t htt e => ?_⟩
  · have hp' := hh.2 hp
    unfold SwRules.Handles
    constructor
    · rintro ⟨g1, g2, g3, g4⟩
      rcases List.mem_append.1 g1 with g | g
      · have := hS e g g2
        have := g4 _ (List.mem_append_right _ (List.mem_singleton.2 rfl)) rfl hp'
        simp only at this
        omega
      · exact List.mem_singleton.1 g
    · rintro rfl
      refine ⟨List.mem_append_right _ (List.mem_singleton.2 rfl), rfl, hp', fun e' he' ht' _ => ?_⟩
      rcases List.mem_append.1 he' with g | g
      · exact Nat.le_of_lt (hS e' g ht')
      · rw [List.mem_singleton.1 g]; exact Nat.le_refl _
  · have hp' : ¬ _ := fun g => hp (hh.1 g)
    unfold SwRules.Handles
    constructor
    · rintro ⟨g1, g2, g3, g4⟩
      rcases List.mem_append.1 g1 with g | g
      · exact ⟨g, g2, g3, fun e' he' => g4 e' (List.mem_append_left _ he')⟩
      · rw [List.mem_singleton.1 g] at g3; exact absurd g3 hp'
    · rintro ⟨g1, g2, g3, g4⟩
      refine ⟨List.mem_append_left _ g1, g2, g3, fun e' he' ht' hh' => ?_⟩
      rcases List.mem_append.1 he' with g | g
      · exact g4 e' g ht' hh'
      · rw [List.mem_singleton.1 g] at hh'; exact absurd hh' hp'
  · unfold SwRules.Handles
    constructor
    · rintro ⟨g1, g2, g3, g4⟩
      rcases List.mem_append.1 g1 with g | g
      · exact ⟨g, g2, g3, fun e' he' => g4 e' (List.mem_append_left _ he')⟩
      · rw [List.mem_singleton.1 g] at g2; exact absurd g2.symm htt
    · rintro ⟨g1, g2, g3, g4⟩
      refine ⟨List.mem_append_left _ g1, g2, g3, fun e' he' ht' hh' => ?_⟩
      rcases List.mem_append.1 he' with g | g
      · exact g4 e' g ht' hh'
      · rw [List.mem_singleton.1 g] at ht'; exact absurd ht'.symm htt

/-- C116.  The rules are lawful, so all of C114 holds for them. -/
theorem oxm_lawful (o : Bytes → Bytes → Bool) (po gr : Bytes → List Nat) :
    (oxmRules o po gr).Lawful :=
  ⟨fun _ => rfl, fun _ => rfl⟩

private theorem andB_comm (a b : Bytes) : andB a b = andB b a := by
  unfold andB
  rw [List.zipWith_comm]
  congr 1
  funext x y
  exact UInt8.and_comm y x

private theorem andB_assoc : ∀ a b c : Bytes, andB (andB a b) c = andB a (andB b c)
  | [], _, _ => by simp [andB]
  | _ :: _, [], _ => by simp [andB]
  | _ :: _, _ :: _, [] => by simp [andB]
  | a :: as, b :: bs, c :: cs => by
    have := andB_assoc as bs cs
    simp only [andB, List.zipWith_cons_cons] at this ⊢
    rw [this, UInt8.and_assoc]

/-- C116.  Deletion is by packets: whatever entry `FlowFlush(t, m)` removes, it matched only
packets that have all the values that the fields of `m` name. -/
theorem oxm_flush (t : UInt8) (m : Match) (hv : m.Valid) (hm : m.type = 1)
    (hl : 48 + m.writeTo.out.length ≤ 65535) (o : Bytes → Bytes → Bool) (po gr : Bytes → List Nat)
    (S : List SwEntry) :
    ∃ msg S', ((flowFlush t m).writeTo recorder []).dst = [msg] ∧
      (oxmRules o po gr).flowMod msg S = .ok S' ∧
      (∀ e ∈ S', e ∈ S) ∧
      ∀ e ∈ S, e ∉ S' → (t = 255 ∨ e.table = t.toNat) ∧
        ∀ p, (oxmRules o po gr).hit e.fields p = true → ∀ x ∈ m.fields, Selects x p := by
  obtain ⟨msg, h1, -, h3⟩ := switch_flowFlush t m hv hm hl
  refine ⟨msg, _, h1, h3 _ S, fun e he => (List.mem_filter.1 he).1, fun e he hne => ?_⟩
  have hx : ((t == 255 || e.table == t.toNat) &&
      (oxmRules o po gr).narrower e.fields (m.fields.flatMap (fun x => x.writeTo.out))) = true := by
    cases hb : ((t == 255 || e.table == t.toNat) &&
      (oxmRules o po gr).narrower e.fields (m.fields.flatMap (fun x => x.writeTo.out)))
    · exact absurd (List.mem_filter.2 ⟨he, by simp only [hb]; rfl⟩) hne
    · rfl
  simp only [Bool.and_eq_true, Bool.or_eq_true, beq_iff_eq] at hx
  refine ⟨hx.1, fun p hp x hxm => ?_⟩
  have hn := hx.2
  simp only [oxmRules, oxmNarrower, oxms_of m.fields hv.1] at hn hp
  cases hs : Spec.oxms e.fields with
  | none => simp [hs] at hp
  | some l =>
    simp only [hs, List.all_eq_true, List.any_eq_true, Option.getD_some] at hn hp
    obtain ⟨o', ho', hw⟩ := hn x.said (List.mem_map.2 ⟨x, hxm, rfl⟩)
    have hh := hp o' ho'
    rw [← hit_said x (hv.1 x hxm) p]
    simp only [oxmWithin, Bool.and_eq_true, beq_iff_eq] at hw
    obtain ⟨⟨⟨⟨⟨⟨w1, w2⟩, w3⟩, w4⟩, w5⟩, w6⟩, w7⟩ := hw
    unfold oxmHit at hh ⊢
    rw [← w1, ← w2]
    cases hpv : p o'.cls o'.field with
    | none => simp [hpv] at hh
    | some v =>
      simp only [hpv, Bool.and_eq_true, beq_iff_eq] at hh ⊢
      refine ⟨by omega, ?_⟩
      rw [← w7, ← w6, andB_comm (oxmMask x.said), ← andB_assoc, hh.2, andB_assoc]

private theorem within_self (x : XM) (hv : x.Valid) : oxmWithin x.said x.said = true := by
  have hs : ∀ a : Bytes, andB a a = a := by
    intro a
    induction a with
    | nil => rfl
    | cons b a ih => simp only [andB, List.zipWith_cons_cons, UInt8.and_self] at ih ⊢; rw [ih]
  have hl : (oxmMask x.said).length = x.said.value.length := by
    simp only [oxmMask, XM.said]
    split
    · simp
    · rename_i h; simpa using hv.2.2.resolve_left h
  simp [oxmWithin, hs, hl]

/-- C116.  Conversely, `FlowFlush(t, m)` removes all entries of the table that were added with the
fields of `m` among their match fields, whatever other fields they have, in whatever order. -/
theorem oxm_flush_all (t : UInt8) (m : Match) (hv : m.Valid) (hm : m.type = 1)
    (hl : 48 + m.writeTo.out.length ≤ 65535) (o : Bytes → Bytes → Bool) (po gr : Bytes → List Nat)
    (S : List SwEntry) :
    ∃ msg S', ((flowFlush t m).writeTo recorder []).dst = [msg] ∧
      (oxmRules o po gr).flowMod msg S = .ok S' ∧
      ∀ (e : SwEntry) (ys : List XM), (t = 255 ∨ e.table = t.toNat) → (∀ y ∈ ys, y.Valid) →
        e.fields = ys.flatMap (fun y => y.writeTo.out) → (∀ x ∈ m.fields, x ∈ ys) → e ∉ S' := by
  obtain ⟨msg, h1, -, h3⟩ := switch_flowFlush t m hv hm hl
  refine ⟨msg, _, h1, h3 _ S, fun e ys ht hy he hx hmem => ?_⟩
  have hb := (List.mem_filter.1 hmem).2
  have h4 : (t == 255 || e.table == t.toNat) = true := by simpa using ht
  have h5 : oxmNarrower e.fields (m.fields.flatMap (fun x => x.writeTo.out)) = true := by
    simp only [oxmNarrower, he, oxms_of m.fields hv.1, oxms_of ys hy, Option.getD_some,
      List.all_eq_true, List.any_eq_true]
    intro q hq
    obtain ⟨x, hxm, rfl⟩ := List.mem_map.1 hq
    exact ⟨x.said, List.mem_map.2 ⟨x, hx x hxm, rfl⟩, within_self x (hv.1 x hxm)⟩
  have h6 : (oxmRules o po gr).narrower = oxmNarrower := rfl
  rw [h4, h6, h5] at hb
  exact absurd hb (by decide)

/-- Non-vacuity: ARP packets that come in on port 5, and a masked IPv4 source. -/
example : (Match.mk 1 [matchInPort 5, matchEthType 0x806]).Valid ∧
    XM.Valid ⟨0x8000, 11, [10, 0, 0, 0], [255, 0, 0, 0]⟩ ∧
    (oxmRules (fun _ _ => false) (fun _ => []) (fun _ => [])).hit
      ([matchInPort 5, matchEthType 0x806].flatMap fun x => x.writeTo.out)
      (fun _ f => if f = 0 then some [0, 0, 0, 5] else if f = 5 then some [8, 6] else none) = true ∧
    (oxmRules (fun _ _ => false) (fun _ => []) (fun _ => [])).hit
      ([matchInPort 5, matchEthType 0x806].flatMap fun x => x.writeTo.out)
      (fun _ f => if f = 0 then some [0, 0, 0, 6] else if f = 5 then some [8, 6] else none) = false ∧
    (oxmRules (fun _ _ => false) (fun _ => []) (fun _ => [])).hit
      ([(⟨0x8000, 11, [10, 0, 0, 0], [255, 0, 0, 0]⟩ : XM)].flatMap fun x => x.writeTo.out)
      (fun _ f => if f = 11 then some [10, 1, 2, 3] else none) = true ∧
    oxmNarrower ([matchInPort 5, matchEthType 0x806].flatMap fun x => x.writeTo.out)
      ([matchInPort 5].flatMap fun x => x.writeTo.out) = true ∧
    oxmNarrower ([matchInPort 5].flatMap fun x => x.writeTo.out)
      ([matchInPort 5, matchEthType 0x806].flatMap fun x => x.writeTo.out) = false := by
  decide +kernel

end Verif.Props
