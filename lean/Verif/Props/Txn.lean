import Verif.Txn
import Verif.Props.Controller

/-!
# Property C72: replies reach the handler that waits for their transaction
-/

namespace Verif.Props

open Verif

/-- The transaction identifier that `TransactionMatcher` leaves in the header of request `k`. -/
def txnId (rnd : Nat → UInt32) (hdr : Nat → Header) (k : Nat) : UInt32 :=
  (transactionMatcher (rnd k) (hdr k)).1.transaction

/-- The matchers are those of `TransactionMatcher`. -/
def txnEnv (rnd : Nat → UInt32) (hdr : Nat → Header) : Nat → MatchFn :=
  fun k => (transactionMatcher (rnd k) (hdr k)).2

/-- The event is about the message `i`. -/
def MuxEvent.about (i : Nat) : MuxEvent → Bool
  | .registered _ _ => false
  | .selected j _ => j == i
  | .default j => j == i
  | .lost j _ => j == i

/-- The event is that a message is given to the handler `h`. -/
def MuxEvent.calls (h : Handler) : MuxEvent → Bool
  | .selected _ e => e.handler == h
  | _ => false

/-- What should happen to the message `i`: a reply goes to the handler of its request, another
message to the handler `hs` has for its type, or to the default handler if there is none. -/
def Rightly (hs : MuxMap) (reqs : Nat → Request) (kind : Nat → Option Nat) (hd : Nat → Handler) (i : Nat)
    (ev : MuxEvent) : Prop :=
  match kind i with
  | some k => ∃ e, ev = .selected i e ∧ e.handler = hd k
  | none => (∃ e, (.typ (reqs i).header.type, e) ∈ hs ∧ ev = .selected i e) ∨
      (ev = .default i ∧ ∀ e, (.typ (reqs i).header.type, e) ∉ hs)

/-- The circumstances: `hs` has permanent handlers for message types; a reply has the transaction
of its request and a type for which none of them is registered; a request has one reply. -/
structure TxnUse (ids : Nat → UInt32) (hs : MuxMap) (reqs : Nat → Request) (kind : Nat → Option Nat)
    (hd : Nat → Handler) : Prop where
  base : ∀ p ∈ hs, (∃ t, p.1 = .typ t) ∧ p.2.once = false ∧ ∀ k, p.2.handler ≠ hd k
  keys : hs.keys.Nodup
  reply : ∀ i k, kind i = some k → (reqs i).header.transaction = ids k
  types : ∀ i k, kind i = some k → ∀ e, (.typ (reqs i).header.type, e) ∉ hs
  one : ∀ i j k, kind i = some k → kind j = some k → i = j
  handlers : ∀ k k', hd k = hd k' → k = k'

/-- Executions in which the transactions that are outstanding at the same time have different
identifiers, and messages that are no replies have none of them. -/
inductive TxnClean (early : Bool) (rnd : Nat → UInt32) (hdr : Nat → Header) (reqs : Nat → Request)
    (kind : Nat → Option Nat) (hd : Nat → Handler) (s₀ : TxnSys) : TxnSys → Prop where
  | refl : TxnClean early rnd hdr reqs kind hd s₀ s₀
  | tail {s s'} (hs : TxnClean early rnd hdr reqs kind hd s₀ s)
    (st : TxnSys.Step early (txnEnv rnd hdr) reqs kind hd s s')
    (hdist : ∀ k k', .ptr k ∈ s'.mux.hs.keys → .ptr k' ∈ s'.mux.hs.keys → txnId rnd hdr k = txnId rnd hdr k' → k = k')
    (hf : ∀ i, kind i = none → s.started i = false → s'.started i = true →
      ∀ k, .ptr k ∈ s.mux.hs.keys → (reqs i).header.transaction ≠ txnId rnd hdr k) :
    TxnClean early rnd hdr reqs kind hd s₀ s'

/-! ## The invariant -/

private theorem txn_run (rnd : Nat → UInt32) (hdr : Nat → Header) (m : Matcher) (r : Request) :
    m.run (txnEnv rnd hdr) r = (match m with
      | .typ t => r.header.type == t
      | .ptr k => r.header.transaction == txnId rnd hdr k, r) := by
  cases m with
  | typ t => rfl
  | ptr k => simp [Matcher.run, txnEnv, txnId, transactionMatcher]

private theorem txn_search (rnd : Nat → UInt32) (hdr : Nat → Header) (r : Request) (order : MuxMap) :
    (∃ m e, (m, e) ∈ order ∧ (m.run (txnEnv rnd hdr) r).1 = true ∧
      MuxMap.search (txnEnv rnd hdr) order r = (some (m, e), r)) ∨
    ((∀ m e, (m, e) ∈ order → (m.run (txnEnv rnd hdr) r).1 = false) ∧
      MuxMap.search (txnEnv rnd hdr) order r = (none, r)) := by
  induction order with
  | nil => exact .inr ⟨by simp, rfl⟩
  | cons a t ih =>
    obtain ⟨m, e⟩ := a
    have h2 : (m.run (txnEnv rnd hdr) r).2 = r := by rw [txn_run]
    rcases hm : m.run (txnEnv rnd hdr) r with ⟨b, r'⟩
    rw [hm] at h2
    simp only at h2
    subst h2
    cases b with
    | true => exact .inl ⟨m, e, by simp, by rw [hm], by simp [MuxMap.search, hm]⟩
    | false =>
      rcases ih with ⟨m', e', i1, i2, i3⟩ | ⟨i1, i2⟩
      · exact .inl ⟨m', e', by simp [i1], i2, by simp [MuxMap.search, hm, i3]⟩
      · refine .inr ⟨fun m' e' h => ?_, by simp [MuxMap.search, hm, i2]⟩
        simp at h
        rcases h with ⟨rfl, rfl⟩ | h
        · rw [hm]
        · exact i1 m' e' h

private structure TxnInv (hs : MuxMap) (reqs : Nat → Request) (kind : Nat → Option Nat)
    (hd : Nat → Handler) (s : TxnSys) : Prop where
  nodup : s.mux.hs.keys.Nodup
  typ : ∀ t e, (.typ t, e) ∈ s.mux.hs ↔ (.typ t, e) ∈ hs
  ptr : ∀ k e, (.ptr k, e) ∈ s.mux.hs → s.reg k = true ∧ e.handler = hd k ∧ e.once = true
  sent : ∀ k, s.sent k = true → s.reg k = true
  waits : ∀ k, s.reg k = true → (∃ i, kind i = some k ∧ s.started i = true ∧ s.mux.pend i = none) ∨
    ∃ e, (.ptr k, e) ∈ s.mux.hs
  pend : ∀ i m e, s.mux.pend i = some (m, e) → s.started i = true ∧ (m, e) ∈ s.mux.hs ∧ ∃ k, kind i = some k ∧ m = .ptr k
  quiet : ∀ i, s.started i = false ∨ s.mux.pend i ≠ none → s.mux.log.filter (MuxEvent.about i) = []
  told : ∀ i, s.started i = true → s.mux.pend i = none →
    ∃ ev, s.mux.log.filter (MuxEvent.about i) = [ev] ∧ Rightly hs reqs kind hd i ev

@[simp] private theorem flag_same (f : Nat → Bool) (k : Nat) : flag f k k = true := by simp [flag]

private theorem flag_iff (f : Nat → Bool) (k j : Nat) : flag f k j = true ↔ j = k ∨ f j = true := by
  simp only [flag]
  split <;> simp_all

private theorem flag_false (f : Nat → Bool) (k j : Nat) : flag f k j = false ↔ j ≠ k ∧ f j = false := by
  simp only [flag]
  split <;> simp_all

private theorem about_other {i j : Nat} (h : j ≠ i) (ev : MuxEvent) (hev : MuxEvent.about i ev = true) :
    MuxEvent.about j ev = false := by
  cases ev <;> simp_all [MuxEvent.about] <;> exact fun hh => h hh.symm

/-- A message is dispatched: `ev` is appended. -/
private theorem told_step {hs : MuxMap} {reqs : Nat → Request} {kind : Nat → Option Nat} {hd : Nat → Handler}
    {s : TxnSys} (inv : TxnInv hs reqs kind hd s) (i : Nat) (ev : MuxEvent) (he : MuxEvent.about i ev = true)
    (hr : Rightly hs reqs kind hd i ev)
    (h0 : s.mux.log.filter (MuxEvent.about i) = []) (st' : Nat → Bool) (pend' : Nat → Option (Matcher × MuxEntry))
    (hst : ∀ j, j ≠ i → st' j = s.started j) (hp : ∀ j, j ≠ i → pend' j = s.mux.pend j)
    (hsi : st' i = true) (hpi : pend' i = none) :
    (∀ j, st' j = false ∨ pend' j ≠ none → (s.mux.log ++ [ev]).filter (MuxEvent.about j) = []) ∧
    (∀ j, st' j = true → pend' j = none →
      ∃ ev', (s.mux.log ++ [ev]).filter (MuxEvent.about j) = [ev'] ∧ Rightly hs reqs kind hd j ev') := by
  constructor
  · intro j hj
    by_cases hji : j = i
    · subst hji; simp [hsi, hpi] at hj
    · rw [hst j hji, hp j hji] at hj
      simp [inv.quiet j hj, about_other hji ev he]
  · intro j h1 h2
    by_cases hji : j = i
    · subst hji; exact ⟨ev, by simp [h0, he], hr⟩
    · rw [hst j hji] at h1
      rw [hp j hji] at h2
      obtain ⟨ev', g1, g2⟩ := inv.told j h1 h2
      exact ⟨ev', by simp [g1, about_other hji ev he], g2⟩

private theorem txn_inv {rnd : Nat → UInt32} {hdr : Nat → Header} {hs : MuxMap} {reqs : Nat → Request}
    {kind : Nat → Option Nat} {hd : Nat → Handler} (hu : TxnUse (txnId rnd hdr) hs reqs kind hd) {s : TxnSys}
    (h : TxnClean true rnd hdr reqs kind hd (.init hs) s) :
    TxnInv hs reqs kind hd s ∧
    ∀ k k', .ptr k ∈ s.mux.hs.keys → .ptr k' ∈ s.mux.hs.keys → txnId rnd hdr k = txnId rnd hdr k' → k = k' := by
  induction h with
  | refl =>
    have hp : ∀ k e, (Matcher.ptr k, e) ∉ hs := by
      intro k e hm
      obtain ⟨⟨t, ht⟩, -⟩ := hu.base _ hm
      cases ht
    refine ⟨⟨hu.keys, fun t e => Iff.rfl, fun k e hm => absurd hm (hp k e), by simp [TxnSys.init], by simp [TxnSys.init],
      by simp [TxnSys.init], by simp [TxnSys.init], by simp [TxnSys.init]⟩, ?_⟩
    intro k k' hk
    obtain ⟨e, he⟩ := MuxMap.mem_keys.mp hk
    exact absurd he (hp k e)
  | @tail s s' _ st hdist hfor ih =>
    refine ⟨?_, hdist⟩
    obtain ⟨inv, huni⟩ := ih
    -- which entry accepts a message
    have acc : ∀ i m e, s.started i = false → (∀ k, kind i = some k → s.sent k = true) → s'.started i = true →
        (m, e) ∈ s.mux.hs → (m.run (txnEnv rnd hdr) (reqs i)).1 = true →
        (∃ k, kind i = some k ∧ m = .ptr k) ∨ (kind i = none ∧ m = .typ (reqs i).header.type ∧ (m, e) ∈ hs) := by
      intro i m e hn hsent hst hm hr
      rw [txn_run] at hr
      cases m with
      | typ t =>
        simp only [beq_iff_eq] at hr
        subst hr
        have hm' := (inv.typ _ e).mp hm
        cases hk : kind i with
        | some k => exact absurd hm' (hu.types i k hk e)
        | none => exact .inr ⟨rfl, rfl, hm'⟩
      | ptr k =>
        simp only [beq_iff_eq] at hr
        have hmk : .ptr k ∈ s.mux.hs.keys := MuxMap.mem_keys.mpr ⟨e, hm⟩
        cases hk : kind i with
        | none => exact absurd hr (hfor i hk hn hst k hmk)
        | some k' =>
          refine .inl ⟨k', rfl, ?_⟩
          rcases inv.waits k' (inv.sent k' (hsent k' hk)) with ⟨j, h1, h2, -⟩ | ⟨e', he'⟩
          · rw [hu.one j i k' h1 hk, hn] at h2
            cases h2
          · rw [huni k k' hmk (MuxMap.mem_keys.mpr ⟨e', he'⟩) (by rw [← hr, hu.reply i k' hk])]
    -- a reply is accepted by the entry of its request
    have rep : ∀ i k, s.started i = false → (∀ k, kind i = some k → s.sent k = true) → kind i = some k →
        ∃ e, (.ptr k, e) ∈ s.mux.hs ∧ ((Matcher.ptr k).run (txnEnv rnd hdr) (reqs i)).1 = true := by
      intro i k hn hsent hk
      rcases inv.waits k (inv.sent k (hsent k hk)) with ⟨j, h1, h2, -⟩ | ⟨e', he'⟩
      · rw [hu.one j i k h1 hk, hn] at h2
        cases h2
      · exact ⟨e', he', by rw [txn_run]; simp [hu.reply i k hk]⟩
    have pnone : ∀ i, s.started i = false → s.mux.pend i = none := by
      intro i hn
      cases hp : s.mux.pend i with
      | none => rfl
      | some p =>
        have := (inv.pend i p.1 p.2 hp).1
        rw [hn] at this
        cases this
    have waits' : ∀ i, s.started i = false → ∀ k, s.reg k = true →
        (∃ j, kind j = some k ∧ flag s.started i j = true ∧ s.mux.pend j = none) ∨ ∃ e, (.ptr k, e) ∈ s.mux.hs := by
      intro i hn k hk
      rcases inv.waits k hk with ⟨j, h1, h2, h3⟩ | h
      · exact .inl ⟨j, h1, (flag_iff ..).mpr (.inr h2), h3⟩
      · exact .inr h
    cases st with
    | register k hs' hr hok =>
      obtain ⟨hnk, rfl⟩ := MuxMap.handle_ok hok
      refine ⟨?_, ?_, ?_, ?_, ?_, ?_, ?_, ?_⟩
      · simp only [MuxMap.keys, List.map_cons, List.nodup_cons]
        exact ⟨hnk, inv.nodup⟩
      · intro t e
        simpa using inv.typ t e
      · intro k' e hm
        simp at hm
        rcases hm with ⟨rfl, rfl⟩ | hm
        · exact ⟨by simp, rfl, rfl⟩
        · obtain ⟨h1, h2⟩ := inv.ptr k' e hm
          exact ⟨(flag_iff ..).mpr (.inr h1), h2⟩
      · exact fun k' h => (flag_iff ..).mpr (.inr (inv.sent k' h))
      · intro k' h
        rcases (flag_iff ..).mp h with rfl | h
        · exact .inr ⟨⟨hd k', true, s.mux.next⟩, by simp⟩
        · rcases inv.waits k' h with h | ⟨e, he⟩
          · exact .inl h
          · exact .inr ⟨e, by simp [he]⟩
      · intro i m e hi
        obtain ⟨h1, h2, h3⟩ := inv.pend i m e hi
        exact ⟨h1, by simp [h2], h3⟩
      · intro i hi
        simpa [MuxEvent.about] using inv.quiet i hi
      · intro i h1 h2
        simpa [MuxEvent.about] using inv.told i h1 h2
    | write k hk hr =>
      refine ⟨inv.nodup, inv.typ, inv.ptr, ?_, inv.waits, inv.pend, inv.quiet, inv.told⟩
      intro k' h
      rcases (flag_iff ..).mp h with rfl | h
      · exact hr rfl
      · exact inv.sent k' h
    | miss i order r' hn hk hp hf =>
      have hnone : ∀ m e, (m, e) ∈ s.mux.hs → (m.run (txnEnv rnd hdr) (reqs i)).1 = false := by
        rcases txn_search rnd hdr (reqs i) order with ⟨m, e, -, -, h3⟩ | ⟨h1, -⟩
        · rw [h3] at hf; simp at hf
        · exact fun m e hm => h1 m e (hp.mem_iff.mpr hm)
      have hright : Rightly hs reqs kind hd i (.default i) := by
        unfold Rightly
        cases hki : kind i with
        | some k =>
          obtain ⟨e, h1, h2⟩ := rep i k hn hk hki
          rw [hnone _ e h1] at h2
          cases h2
        | none =>
          refine .inr ⟨rfl, fun e he => ?_⟩
          have := hnone _ e ((inv.typ _ e).mpr he)
          simp [txn_run] at this
      obtain ⟨q1, q2⟩ := told_step inv i (.default i) (by simp [MuxEvent.about]) hright (inv.quiet i (.inl hn))
        (flag s.started i) s.mux.pend (fun j hj => by simp [flag, hj]) (fun _ _ => rfl) (by simp) (pnone i hn)
      refine ⟨inv.nodup, inv.typ, inv.ptr, inv.sent, waits' i hn, fun j m e hj => ?_, q1, q2⟩
      obtain ⟨h1, h2⟩ := inv.pend j m e hj
      exact ⟨(flag_iff ..).mpr (.inr h1), h2⟩
    | found i order r' m e hn hk hp hf ho =>
      have hsel : (m, e) ∈ s.mux.hs ∧ (m.run (txnEnv rnd hdr) (reqs i)).1 = true := by
        rcases txn_search rnd hdr (reqs i) order with ⟨m', e', h1, h2, h3⟩ | ⟨-, h1⟩
        · rw [h3] at hf
          simp only [Prod.mk.injEq, Option.some.injEq] at hf
          obtain ⟨⟨rfl, rfl⟩, -⟩ := hf
          exact ⟨hp.mem_iff.mp h1, h2⟩
        · rw [h1] at hf; simp at hf
      have hright : Rightly hs reqs kind hd i (.selected i e) := by
        unfold Rightly
        rcases acc i m e hn hk (by simp) hsel.1 hsel.2 with ⟨k, h1, rfl⟩ | ⟨h1, rfl, h3⟩
        · have := (inv.ptr k e hsel.1).2.2
          rw [ho] at this
          cases this
        · rw [h1]
          exact .inl ⟨e, h3, rfl⟩
      obtain ⟨q1, q2⟩ := told_step inv i (.selected i e) (by simp [MuxEvent.about]) hright (inv.quiet i (.inl hn))
        (flag s.started i) s.mux.pend (fun j hj => by simp [flag, hj]) (fun _ _ => rfl) (by simp) (pnone i hn)
      refine ⟨inv.nodup, inv.typ, inv.ptr, inv.sent, waits' i hn, fun j m e hj => ?_, q1, q2⟩
      obtain ⟨h1, h2⟩ := inv.pend j m e hj
      exact ⟨(flag_iff ..).mpr (.inr h1), h2⟩
    | foundOnce i order r' m e hn hk hp hf ho =>
      have hsel : (m, e) ∈ s.mux.hs ∧ (m.run (txnEnv rnd hdr) (reqs i)).1 = true := by
        rcases txn_search rnd hdr (reqs i) order with ⟨m', e', h1, h2, h3⟩ | ⟨-, h1⟩
        · rw [h3] at hf
          simp only [Prod.mk.injEq, Option.some.injEq] at hf
          obtain ⟨⟨rfl, rfl⟩, -⟩ := hf
          exact ⟨hp.mem_iff.mp h1, h2⟩
        · rw [h1] at hf; simp at hf
      have hkm : ∃ k, kind i = some k ∧ m = .ptr k := by
        rcases acc i m e hn hk (by simp) hsel.1 hsel.2 with h | ⟨h1, rfl, h3⟩
        · exact h
        · have := (hu.base _ h3).2.1
          rw [ho] at this
          cases this
      refine ⟨inv.nodup, inv.typ, inv.ptr, inv.sent, fun k hk' => ?_, fun j m' e' hj => ?_, fun j hj => ?_, fun j h1 h2 => ?_⟩
      · rcases inv.waits k hk' with ⟨j, h1, h2, h3⟩ | h
        · have hji : j ≠ i := by rintro rfl; rw [hn] at h2; cases h2
          exact .inl ⟨j, h1, (flag_iff ..).mpr (.inr h2), by simp [hji, h3]⟩
        · exact .inr h
      · by_cases hji : j = i
        · subst hji
          simp at hj
          obtain ⟨rfl, rfl⟩ := hj
          exact ⟨by simp, hsel.1, hkm⟩
        · simp [hji] at hj
          obtain ⟨h1, h2⟩ := inv.pend j m' e' hj
          exact ⟨(flag_iff ..).mpr (.inr h1), h2⟩
      · by_cases hji : j = i
        · subst hji
          exact inv.quiet j (.inl hn)
        · simp [flag, hji] at hj
          exact inv.quiet j (by simpa using hj)
      · by_cases hji : j = i
        · subst hji; simp at h2
        · simp [flag, hji] at h1 h2
          exact inv.told j h1 h2
    | take i m e hi =>
      obtain ⟨g1, g2, k, g3, rfl⟩ := inv.pend i m e hi
      have hkey : .ptr k ∈ s.mux.hs.keys := MuxMap.mem_keys.mpr ⟨e, g2⟩
      have htake : s.mux.hs.take (.ptr k) e = (some e.handler, s.mux.hs.delete (.ptr k)) := by
        simp [MuxMap.take, hkey]
      have hright : Rightly hs reqs kind hd i (.selected i e) := by
        unfold Rightly
        rw [g3]
        exact ⟨e, rfl, (inv.ptr k e g2).2.1⟩
      obtain ⟨q1, q2⟩ := told_step inv i (.selected i e) (by simp [MuxEvent.about]) hright (inv.quiet i (.inr (by simp [hi])))
        s.started (fun j => if j = i then none else s.mux.pend j) (fun _ _ => rfl) (fun j hj => by simp [hj]) g1 (by simp)
      have hmem : ∀ m e, (m, e) ∈ s.mux.hs.delete (.ptr k) ↔ (m, e) ∈ s.mux.hs ∧ m ≠ .ptr k := by
        intro m e
        simp [MuxMap.delete]
      simp only [htake, if_true]
      refine ⟨MuxMap.nodup_delete inv.nodup _, fun t e => ?_, fun k' e' h => ?_, inv.sent, fun k' hk' => ?_,
        fun j m' e' hj => ?_, q1, q2⟩
      · rw [hmem, ← inv.typ t e]
        simp
      · exact inv.ptr k' e' ((hmem _ _).mp h).1
      · rcases inv.waits k' hk' with ⟨j, h1, h2, h3⟩ | ⟨e', he'⟩
        · exact .inl ⟨j, h1, h2, by simp [h3]⟩
        · by_cases hkk : k' = k
          · subst hkk
            exact .inl ⟨i, g3, g1, by simp⟩
          · exact .inr ⟨e', (hmem _ _).mpr ⟨he', by simp [hkk]⟩⟩
      · by_cases hji : j = i
        · simp [hji] at hj
        · simp [hji] at hj
          obtain ⟨h1, h2, k', h3, rfl⟩ := inv.pend j m' e' hj
          refine ⟨h1, (hmem _ _).mpr ⟨h2, ?_⟩, k', h3, rfl⟩
          intro hkk
          simp at hkk
          subst hkk
          exact hji (hu.one j i k' h3 g3)

/-! ## The property -/

section

variable {rnd : Nat → UInt32} {hdr : Nat → Header} {hs : MuxMap} {reqs : Nat → Request}
  {kind : Nat → Option Nat} {hd : Nat → Handler}

/-- C72.  Any number of goroutines make requests, registering before they write, and any number
of messages are dispatched at the same time, in any interleaving; outstanding transactions
differ.  Each message whose dispatch is over has been dealt with once, and rightly: a reply has
been given to the handler of its request; another message to the handler for its type or, if
there is none, to the default handler.  Nothing has happened to the others. -/
theorem txn_delivered (hu : TxnUse (txnId rnd hdr) hs reqs kind hd) (s : TxnSys)
    (h : TxnClean true rnd hdr reqs kind hd (.init hs) s) (i : Nat) :
    (s.started i = true ∧ s.mux.pend i = none →
      ∃ ev, s.mux.log.filter (MuxEvent.about i) = [ev] ∧ Rightly hs reqs kind hd i ev) ∧
    (¬ (s.started i = true ∧ s.mux.pend i = none) → s.mux.log.filter (MuxEvent.about i) = []) := by
  have inv := (txn_inv hu h).1
  refine ⟨fun ⟨h1, h2⟩ => inv.told i h1 h2, fun hn => inv.quiet i ?_⟩
  cases hst : s.started i with
  | false => exact .inl rfl
  | true => exact .inr fun hp => hn ⟨hst, hp⟩

/-- C72.  A handler is called for the reply to its request only. -/
theorem txn_exclusive (hu : TxnUse (txnId rnd hdr) hs reqs kind hd) (s : TxnSys)
    (h : TxnClean true rnd hdr reqs kind hd (.init hs) s) (i k : Nat) (e : MuxEntry)
    (hl : .selected i e ∈ s.mux.log) (he : e.handler = hd k) : kind i = some k := by
  have hm : .selected i e ∈ s.mux.log.filter (MuxEvent.about i) := by simp [hl, MuxEvent.about]
  obtain ⟨h1, h2⟩ := txn_delivered hu s h i
  by_cases hn : s.started i = true ∧ s.mux.pend i = none
  · obtain ⟨ev, g1, g2⟩ := h1 hn
    rw [g1] at hm
    simp at hm
    subst hm
    unfold Rightly at g2
    cases hk : kind i with
    | some k' =>
      rw [hk] at g2
      obtain ⟨e', h3, h4⟩ := g2
      simp at h3
      rw [hu.handlers k' k (by rw [← h4, ← h3, he])]
    | none =>
      rw [hk] at g2
      rcases g2 with ⟨e', h3, h4⟩ | ⟨h3, -⟩
      · simp at h4
        subst h4
        exact absurd he ((hu.base _ h3).2.2 k)
      · cases h3
  · rw [h2 hn] at hm
    cases hm

/-- C72.  The handler of a request is called at most once, however many messages arrive. -/
theorem txn_once (hu : TxnUse (txnId rnd hdr) hs reqs kind hd) (s : TxnSys)
    (h : TxnClean true rnd hdr reqs kind hd (.init hs) s) (k : Nat) :
    (s.mux.log.filter (MuxEvent.calls (hd k))).length ≤ 1 := by
  by_cases hex : ∃ i, kind i = some k
  · obtain ⟨i, hi⟩ := hex
    have hsub : s.mux.log.filter (MuxEvent.calls (hd k)) =
        (s.mux.log.filter (MuxEvent.about i)).filter (MuxEvent.calls (hd k)) := by
      rw [List.filter_filter]
      refine List.filter_congr fun ev hev => ?_
      cases hc : MuxEvent.calls (hd k) ev with
      | false => simp
      | true =>
        cases ev with
        | selected j e =>
          simp [MuxEvent.calls] at hc
          have := txn_exclusive hu s h j k e hev hc
          simp [MuxEvent.about, hu.one j i k this hi]
        | _ => simp [MuxEvent.calls] at hc
    rw [hsub]
    refine Nat.le_trans (List.length_filter_le ..) ?_
    obtain ⟨h1, h2⟩ := txn_delivered hu s h i
    by_cases hn : s.started i = true ∧ s.mux.pend i = none
    · obtain ⟨ev, g1, -⟩ := h1 hn
      simp [g1]
    · simp [h2 hn]
  · have : s.mux.log.filter (MuxEvent.calls (hd k)) = [] := by
      rw [List.filter_eq_nil_iff]
      intro ev hev hc
      cases ev with
      | selected j e =>
        simp [MuxEvent.calls] at hc
        exact hex ⟨j, txn_exclusive hu s h j k e hev hc⟩
      | _ => simp [MuxEvent.calls] at hc
    simp [this]

/-- The reply arrives and is dispatched. -/
private theorem txn_arrives (hu : TxnUse (txnId rnd hdr) hs reqs kind hd) (s : TxnSys)
    (h : TxnClean true rnd hdr reqs kind hd (.init hs) s) (i k : Nat) (hk : kind i = some k) (hsent : s.sent k = true)
    (hn : s.started i = false) :
    ∃ s', TxnClean true rnd hdr reqs kind hd (.init hs) s' ∧ ∃ e, e.handler = hd k ∧ .selected i e ∈ s'.mux.log := by
  obtain ⟨inv, huni⟩ := txn_inv hu h
  obtain ⟨e, he⟩ : ∃ e, (.ptr k, e) ∈ s.mux.hs := by
    rcases inv.waits k (inv.sent k hsent) with ⟨j, h1, h2, -⟩ | h
    · rw [hu.one j i k h1 hk, hn] at h2
      cases h2
    · exact h
  have hkey : .ptr k ∈ s.mux.hs.keys := MuxMap.mem_keys.mpr ⟨e, he⟩
  have hf : MuxMap.search (txnEnv rnd hdr) s.mux.hs (reqs i) = (some (.ptr k, e), reqs i) := by
    rcases txn_search rnd hdr (reqs i) s.mux.hs with ⟨m, e', h1, h2, h3⟩ | ⟨h1, -⟩
    · rw [h3]
      have hm : m = .ptr k := by
        rw [txn_run] at h2
        cases m with
        | typ t =>
          simp at h2
          subst h2
          exact absurd ((inv.typ _ e').mp h1) (hu.types i k hk e')
        | ptr k' =>
          simp at h2
          rw [huni k' k (MuxMap.mem_keys.mpr ⟨e', h1⟩) hkey (by rw [← h2, hu.reply i k hk])]
      subst hm
      rw [MuxMap.unique inv.nodup h1 he]
    · have := h1 _ e he
      rw [txn_run] at this
      simp [hu.reply i k hk] at this
  have st1 := TxnSys.Step.foundOnce (early := true) (kind := kind) (hd := hd) s i s.mux.hs (reqs i) (.ptr k) e hn
    (by intro k' hk'; rw [hk] at hk'; cases hk'; exact hsent) (.refl _) hf (inv.ptr k e he).2.2
  have c1 := h.tail st1 huni (by
    intro j hj h1 h2
    rcases (flag_iff ..).mp h2 with rfl | h2
    · rw [hk] at hj; cases hj
    · rw [h1] at h2; cases h2)
  have st2 := TxnSys.Step.take (early := true) (env := txnEnv rnd hdr) (reqs := reqs) (kind := kind) (hd := hd)
    { s with started := flag s.started i,
             mux := { s.mux with pend := fun j => if j = i then some (.ptr k, e) else s.mux.pend j } }
    i (.ptr k) e (by simp)
  have htake : s.mux.hs.take (.ptr k) e = (some e.handler, s.mux.hs.delete (.ptr k)) := by
    simp [MuxMap.take, hkey]
  refine ⟨_, c1.tail st2 ?_ ?_, e, (inv.ptr k e he).2.1, ?_⟩
  · simp only [htake]
    intro k1 k2 h1 h2
    exact huni k1 k2 ((MuxMap.keys_delete ..).mp h1).1 ((MuxMap.keys_delete ..).mp h2).1
  · intro j hj h1 h2
    have h1' : flag s.started i j = false := h1
    have h2' : flag s.started i j = true := h2
    rw [h1'] at h2'
    cases h2'
  · simp [htake]

/-- C72.  Nothing that the other goroutines do can keep a reply from its handler: whatever has
happened, if the reply `i` to request `k` has not been dispatched and no other outstanding
transaction has the identifier, things can go on to where the handler has been called for it. -/
theorem txn_completes (hu : TxnUse (txnId rnd hdr) hs reqs kind hd) (s : TxnSys)
    (h : TxnClean true rnd hdr reqs kind hd (.init hs) s) (i k : Nat) (hk : kind i = some k) (hn : s.started i = false)
    (hfree : ∀ k', .ptr k' ∈ s.mux.hs.keys → txnId rnd hdr k' = txnId rnd hdr k → k' = k) :
    ∃ s', TxnClean true rnd hdr reqs kind hd (.init hs) s' ∧ ∃ e, e.handler = hd k ∧ .selected i e ∈ s'.mux.log := by
  -- it registers
  obtain ⟨s1, h1, hr1, hn1⟩ : ∃ s1, TxnClean true rnd hdr reqs kind hd (.init hs) s1 ∧ s1.reg k = true ∧
      s1.started i = false := by
    obtain ⟨inv, huni⟩ := txn_inv hu h
    cases hr : s.reg k with
    | true => exact ⟨s, h, hr, hn⟩
    | false =>
      have hnk : .ptr k ∉ s.mux.hs.keys := by
        intro hm
        obtain ⟨e, he⟩ := MuxMap.mem_keys.mp hm
        rw [(inv.ptr k e he).1] at hr
        cases hr
      have st := TxnSys.Step.register (early := true) (env := txnEnv rnd hdr) (reqs := reqs) (kind := kind) (hd := hd)
        s k _ hr (show s.mux.hs.handle (some (.ptr k)) (some (hd k)) true s.mux.next =
          (none, (.ptr k, ⟨hd k, true, s.mux.next⟩) :: s.mux.hs) by simp [MuxMap.handle, hnk])
      refine ⟨_, h.tail st ?_ ?_, by simp, hn⟩
      · intro k1 k2 h1 h2 he
        simp only [MuxMap.keys, List.map_cons, List.mem_cons, Matcher.ptr.injEq] at h1 h2
        rcases h1 with rfl | h1 <;> rcases h2 with rfl | h2
        · rfl
        · exact (hfree k2 h2 he.symm).symm
        · exact hfree k1 h1 he
        · exact huni k1 k2 h1 h2 he
      · intro j hj h1 h2
        rw [h1] at h2
        cases h2
  -- it writes
  obtain ⟨s2, h2, hs2, hn2⟩ : ∃ s2, TxnClean true rnd hdr reqs kind hd (.init hs) s2 ∧ s2.sent k = true ∧
      s2.started i = false := by
    obtain ⟨-, huni⟩ := txn_inv hu h1
    cases hs1 : s1.sent k with
    | true => exact ⟨s1, h1, hs1, hn1⟩
    | false =>
      have st := TxnSys.Step.write (early := true) (env := txnEnv rnd hdr) (reqs := reqs) (kind := kind) (hd := hd)
        s1 k hs1 fun _ => hr1
      refine ⟨_, h1.tail st huni ?_, by simp, hn1⟩
      intro j hj h1 h2
      rw [h1] at h2
      cases h2
  exact txn_arrives hu s2 h2 i k hk hs2 hn2

end

/-- C72.  What the peer receives when the request is written with the header that
`TransactionMatcher` has completed, in any fragmentation: the matcher accepts exactly the
messages with the transaction that the peer has seen. -/
theorem txn_on_wire (rnd : UInt32) (h : Header) (rv : UInt8) (w : Option Wr) (b : Bytes)
    (hw : (w = none ∧ b = []) ∨ ∃ n, w = some ⟨b, n, none⟩) (hb : 8 + b.length ≤ 65535) (F : Err) (r : Rd) (hr : r.Ok F)
    (hs : r.Sep) (hc : r.content = ConnOp.message (.respond rv (transactionMatcher rnd h).1 w)) :
    ∃ q r', Conn.receive r = (some q, none, r') ∧ q.header.type = h.type ∧ q.body = .buffer b ∧
      ∀ q', ((transactionMatcher rnd h).2 q').1 = true ↔ q'.header.transaction = q.header.transaction := by
  let p : Request × Bytes := (⟨⟨if (transactionMatcher rnd h).1.version = 0 then rv else (transactionMatcher rnd h).1.version,
    (transactionMatcher rnd h).1.type, 0, (transactionMatcher rnd h).1.transaction⟩, .buffer b, 0, 0, 0⟩, b)
  have hp : ∀ x ∈ [p], x.1.body.Yields x.2 ∧ 8 + x.2.length ≤ 65535 := by
    intro x hx
    simp at hx
    subst hx
    exact ⟨rfl, hb⟩
  have hm : r.content = serialise ([p].map (·.1)) ++ [] := by
    rw [hc, respond_message rv _ w b hw, serialise, foldl_recorder [p] hp]
    simp [p]
  obtain ⟨g1, -, -⟩ := stream_framing F [p] hp r [] hr hs hm
  simp only [List.length_cons, List.length_nil, receiveN] at g1
  rcases hq : Conn.receive r with ⟨q, e, r'⟩
  rw [hq] at g1
  simp at g1
  obtain ⟨rfl, rfl⟩ := g1
  refine ⟨_, r', rfl, ?_, rfl, fun q' => by simp [transactionMatcher, p]⟩
  simp only [p, transactionMatcher]
  split <;> rfl

/-! ## Where it fails -/

/-- C72 fails when the handler is registered after the request has been written: the reply may
arrive before, and is given to the default handler; the handler is registered and waits for a
reply that has already been dispatched. -/
theorem txn_late_false (rnd : Nat → UInt32) (hdr : Nat → Header) (reqs : Nat → Request) (kind : Nat → Option Nat)
    (hd : Nat → Handler) (i k : Nat) (hk : kind i = some k) :
    ∃ s, TxnClean false rnd hdr reqs kind hd (.init []) s ∧ .default i ∈ s.mux.log ∧ s.reg k = true ∧
      s.started i = true ∧ s.mux.pend i = none ∧ s.mux.log.filter (MuxEvent.calls (hd k)) = [] := by
  let s0 : TxnSys := .init []
  let s1 : TxnSys := { s0 with sent := flag s0.sent k }
  have st1 : TxnSys.Step false (txnEnv rnd hdr) reqs kind hd s0 s1 := .write s0 k rfl (by simp)
  let s2 : TxnSys := { s1 with started := flag s1.started i, mux := { s1.mux with log := s1.mux.log ++ [.default i] } }
  have st2 : TxnSys.Step false (txnEnv rnd hdr) reqs kind hd s1 s2 :=
    .miss s1 i [] (reqs i) rfl (by intro k' hk'; rw [hk] at hk'; cases hk'; simp [s1]) (.refl _) rfl
  let s3 : TxnSys := { s2 with reg := flag s2.reg k,
                               mux := { s2.mux with hs := [(.ptr k, ⟨hd k, true, 0⟩)], next := s2.mux.next + 1,
                                                    log := s2.mux.log ++ [.registered (.ptr k) ⟨hd k, true, s2.mux.next⟩] } }
  have st3 : TxnSys.Step false (txnEnv rnd hdr) reqs kind hd s2 s3 := .register s2 k _ rfl rfl
  refine ⟨s3, ((TxnClean.refl.tail st1 ?_ ?_).tail st2 ?_ ?_).tail st3 ?_ ?_, ?_, ?_, ?_, rfl, ?_⟩
  all_goals simp [s3, s2, s1, s0, TxnSys.init, MuxMap.keys, MuxEvent.calls]

/-- C72 fails when two outstanding transactions have the same identifier, which nothing prevents
(`rand.Uint32`, header.go:251): the reply to one request may be given to the handler of the other. -/
theorem txn_collision_false (rnd : Nat → UInt32) (hdr : Nat → Header) (reqs : Nat → Request) (kind : Nat → Option Nat)
    (hd : Nat → Handler) (i k k' : Nat) (hne : k' ≠ k) (hid : txnId rnd hdr k = txnId rnd hdr k') (hk : kind i = some k)
    (hr : (reqs i).header.transaction = txnId rnd hdr k) :
    ∃ s, TxnSys.Steps true (txnEnv rnd hdr) reqs kind hd (.init []) s ∧ ∃ e, e.handler = hd k' ∧ .selected i e ∈ s.mux.log := by
  let s0 : TxnSys := .init []
  let e0 : MuxEntry := ⟨hd k, true, 0⟩
  let e1 : MuxEntry := ⟨hd k', true, 1⟩
  let s1 : TxnSys := { s0 with reg := flag s0.reg k,
                               mux := { s0.mux with hs := [(.ptr k, e0)], next := s0.mux.next + 1,
                                                    log := s0.mux.log ++ [.registered (.ptr k) ⟨hd k, true, s0.mux.next⟩] } }
  have st1 : TxnSys.Step true (txnEnv rnd hdr) reqs kind hd s0 s1 := .register s0 k _ rfl rfl
  let s2 : TxnSys := { s1 with reg := flag s1.reg k',
                               mux := { s1.mux with hs := [(.ptr k', e1), (.ptr k, e0)], next := s1.mux.next + 1,
                                                    log := s1.mux.log ++ [.registered (.ptr k') ⟨hd k', true, s1.mux.next⟩] } }
  have st2 : TxnSys.Step true (txnEnv rnd hdr) reqs kind hd s1 s2 :=
    .register s1 k' _ (by simp [s1, s0, flag, hne, TxnSys.init]) (by simp [MuxMap.handle, s1, s0, MuxMap.keys, hne, e1, TxnSys.init])
  let s3 : TxnSys := { s2 with sent := flag s2.sent k }
  have st3 : TxnSys.Step true (txnEnv rnd hdr) reqs kind hd s2 s3 :=
    .write s2 k rfl fun _ => (flag_iff ..).mpr (.inr (by simp [s1]))
  let s4 : TxnSys := { s3 with started := flag s3.started i,
                               mux := { s3.mux with pend := fun j => if j = i then some (.ptr k', e1) else s3.mux.pend j } }
  have st4 : TxnSys.Step true (txnEnv rnd hdr) reqs kind hd s3 s4 :=
    .foundOnce s3 i _ (reqs i) (.ptr k') e1 rfl (by intro j hj; rw [hk] at hj; cases hj; simp [s3]) (.refl _) (by
      simp [s3, s2, MuxMap.search, txn_run, hr, hid]) rfl
  have st5 := TxnSys.Step.take (early := true) (env := txnEnv rnd hdr) (reqs := reqs) (kind := kind) (hd := hd)
    s4 i (.ptr k') e1 (by simp [s4])
  refine ⟨_, ((((TxnSys.Steps.refl.tail st1).tail st2).tail st3).tail st4).tail st5, e1, rfl, ?_⟩
  have htake : s4.mux.hs.take (.ptr k') e1 = (some e1.handler, s4.mux.hs.delete (.ptr k')) := by
    simp [MuxMap.take, s4, s3, s2, MuxMap.keys]
  simp [htake]

/-- C72 fails when the peer uses the identifier of an outstanding transaction for a message of its
own, as it may (`TransactionMatcher` does not look at the type): the message `j`, for whose type
`h` is registered, may be given to the handler that waits for the reply; then the reply `i` is
given to the default handler. -/
theorem txn_foreign_false (rnd : Nat → UInt32) (hdr : Nat → Header) (reqs : Nat → Request) (kind : Nat → Option Nat)
    (hd : Nat → Handler) (h : Handler) (i j k : Nat) (hk : kind i = some k) (hj : kind j = none)
    (hr : (reqs j).header.transaction = txnId rnd hdr k) (ht : (reqs i).header.type ≠ (reqs j).header.type) :
    ∃ s, TxnSys.Steps true (txnEnv rnd hdr) reqs kind hd (.init [(.typ (reqs j).header.type, ⟨h, false, 0⟩)]) s ∧
      (∃ e, e.handler = hd k ∧ .selected j e ∈ s.mux.log) ∧ .default i ∈ s.mux.log := by
  have hij : i ≠ j := by rintro rfl; exact ht rfl
  let b : Matcher × MuxEntry := (.typ (reqs j).header.type, ⟨h, false, 0⟩)
  let s0 : TxnSys := .init [b]
  let e0 : MuxEntry := ⟨hd k, true, 1⟩
  let s1 : TxnSys := { s0 with reg := flag s0.reg k,
                               mux := { s0.mux with hs := [(.ptr k, e0), b], next := s0.mux.next + 1,
                                                    log := s0.mux.log ++ [.registered (.ptr k) ⟨hd k, true, s0.mux.next⟩] } }
  have st1 : TxnSys.Step true (txnEnv rnd hdr) reqs kind hd s0 s1 := .register s0 k _ rfl rfl
  let s2 : TxnSys := { s1 with sent := flag s1.sent k }
  have st2 : TxnSys.Step true (txnEnv rnd hdr) reqs kind hd s1 s2 := .write s1 k rfl fun _ => by simp [s1]
  let s3 : TxnSys := { s2 with started := flag s2.started j,
                               mux := { s2.mux with pend := fun x => if x = j then some (.ptr k, e0) else s2.mux.pend x } }
  have st3 : TxnSys.Step true (txnEnv rnd hdr) reqs kind hd s2 s3 :=
    .foundOnce s2 j _ (reqs j) (.ptr k) e0 rfl (by intro x hx; rw [hj] at hx; cases hx) (.refl _) (by
      simp [s2, s1, MuxMap.search, txn_run, hr]) rfl
  have htake : s3.mux.hs.take (.ptr k) e0 = (some e0.handler, [b]) := by
    simp [MuxMap.take, s3, s2, s1, MuxMap.keys, MuxMap.delete, b]
  let s4 : TxnSys := { s3 with mux := { s3.mux with
          hs := (s3.mux.hs.take (.ptr k) e0).2
          pend := fun x => if x = j then none else s3.mux.pend x
          log := s3.mux.log ++ [if (s3.mux.hs.take (.ptr k) e0).1 = some e0.handler then .selected j e0 else .lost j e0] } }
  have st4 : TxnSys.Step true (txnEnv rnd hdr) reqs kind hd s3 s4 := .take s3 j (.ptr k) e0 (by simp [s3])
  have st5 : TxnSys.Step true (txnEnv rnd hdr) reqs kind hd s4
      { s4 with started := flag s4.started i, mux := { s4.mux with log := s4.mux.log ++ [.default i] } } :=
    .miss s4 i [b] (reqs i) ((flag_false ..).mpr ⟨hij, rfl⟩) (by intro x hx; rw [hk] at hx; cases hx; simp [s4, s3, s2])
      (by simp only [s4, htake]; exact .refl _) (by
        simp [MuxMap.search, b, txn_run, beq_false_of_ne ht])
  refine ⟨_, ((((TxnSys.Steps.refl.tail st1).tail st2).tail st3).tail st4).tail st5, ⟨e0, rfl, ?_⟩, ?_⟩
  · simp [s4, htake]
  · simp

/-- Non-vacuity: two goroutines with transactions 7 and 9 (the second one random), a multiplexer
with a handler for echo requests, messages 0 and 1 the replies, all others echo requests. -/
private theorem txn_example : TxnUse (txnId (fun _ => 9) fun k => ⟨4, 18, 0, if k = 0 then 7 else 0⟩) [(.typ 2, ⟨.discard, false, 0⟩)]
    (fun i => { Request.zero with header := ⟨4, if i < 2 then 19 else 2, 8, if i = 0 then 7 else if i = 1 then 9 else 5⟩ })
    (fun i => if i < 2 then some i else none) Handler.user := by
  refine ⟨by simp, by simp [MuxMap.keys], ?_, ?_, ?_, by simp⟩
  · intro i k h
    simp at h
    obtain ⟨h1, rfl⟩ := h
    match i, h1 with
    | 0, _ => rfl
    | 1, _ => rfl
  · intro i k h e
    simp at h
    simp [h.1]
  · intro i j k h1 h2
    simp at h1 h2
    omega

/-- And they can get their replies. -/
example : ∃ s, TxnClean true (fun _ => 9) (fun k => ⟨4, 18, 0, if k = 0 then 7 else 0⟩)
      (fun i => { Request.zero with header := ⟨4, if i < 2 then 19 else 2, 8, if i = 0 then 7 else if i = 1 then 9 else 5⟩ })
      (fun i => if i < 2 then some i else none) Handler.user (.init [(.typ 2, ⟨.discard, false, 0⟩)]) s ∧
    ∃ e, e.handler = .user 1 ∧ .selected 1 e ∈ s.mux.log :=
  txn_completes txn_example _ .refl 1 1 rfl rfl (by simp [TxnSys.init, MuxMap.keys])

end Verif.Props
