import Verif.Props.Bounded
import Verif.Ofp.Port
import Verif.Ofp.Meter
import Verif.Ofp.Queue
import Verif.Ofp.Hello
import Verif.Ofp.Raw
/-!
# Decoding does not amplify: ports, descriptions, multipart requests and lost lists (C77)
-/

namespace Verif

variable {σ τ : Type}

/-- The step keeps `P` of its receiver, whether it succeeds or fails. -/
def Upholds (P : σ → Prop) (st : Step σ) : Prop :=
  ∀ s r, r.Ok .eof → P s → P (st s r).val ∧ (st s r).rd.Ok .eof

theorem Upholds.nil {P : σ → Prop} : Upholds P (Enc.readFrom []) := fun _ _ hr h => ⟨h, hr⟩

theorem Upholds.cons {P : σ → Prop} {st : Step σ} {t : List (Step σ)} (h1 : Upholds P st)
    (h2 : Upholds P (Enc.readFrom t)) : Upholds P (Enc.readFrom (st :: t)) := by
  intro s r hr hP
  have h := h1 s r hr hP
  rcases hst : st s r with ⟨v, n, e, r1⟩
  rw [hst] at h
  cases e with
  | some e => simpa only [Enc.readFrom, hst] using h
  | none => simpa only [Enc.readFrom, hst] using h2 v r1 h.2 h.1

theorem Upholds.bin {P : σ → Prop} {k : Nat} {set : Bytes → σ → σ}
    (h : ∀ b s, b.length = k → P s → P (set b s)) : Upholds P (Enc.bin k set) := by
  intro s r hr hP
  rcases readFull_spec .eof k r hr with ⟨hk, r', h1, h2, h3⟩ | ⟨hk, r', h1, h2, h3⟩
  · simp only [Enc.bin, h1]
    exact ⟨h _ _ (by simp; omega) hP, h3⟩
  · simp only [Enc.bin, h1]
    exact ⟨hP, h3⟩

theorem Upholds.num {α : Type} [Wire α] {P : σ → Prop} {set : α → σ → σ}
    (h : ∀ x s, P s → P (set x s)) : Upholds P (Enc.num set) := Upholds.bin fun _ s _ hP => h _ s hP

theorem Upholds.skip {P : σ → Prop} {k : Nat} : Upholds P (Enc.skip k) := Upholds.bin fun _ _ _ h => h

end Verif

namespace Verif.Props

/-! ## Ports -/

private def PortSized (s : Port × Bytes) : Prop := s.1.hwAddr.length = 6 ∧ s.2.length = 16

/-- The steps of `Port.fields` after the address has been allocated. -/
private def portTail : List (Step (Port × Bytes)) := [
    Enc.num (fun v s => ({ s.1 with portNo := v }, s.2)), Enc.skip 4,
    Enc.bin 6 (fun v s => ({ s.1 with hwAddr := v }, s.2)), Enc.skip 2,
    Enc.bin 16 (fun v s => (s.1, v)),
    Enc.num (fun v s => ({ s.1 with config := v }, s.2)),
    Enc.num (fun v s => ({ s.1 with state := v }, s.2)),
    Enc.num (fun v s => ({ s.1 with curr := v }, s.2)),
    Enc.num (fun v s => ({ s.1 with advertised := v }, s.2)),
    Enc.num (fun v s => ({ s.1 with supported := v }, s.2)),
    Enc.num (fun v s => ({ s.1 with peer := v }, s.2)),
    Enc.num (fun v s => ({ s.1 with currSpeed := v }, s.2)),
    Enc.num (fun v s => ({ s.1 with maxSpeed := v }, s.2))]

/-- A decoded port has an address of 6 bytes and a name of 16, complete or not. -/
theorem port_size (s : Port) (r : Rd) (hr : r.Ok .eof) :
    (Port.readFrom s r).val.hwAddr.length = 6 ∧ (Port.readFrom s r).val.name.length = 16 := by
  have h : Upholds PortSized (Enc.readFrom (portTail)) := by
    unfold portTail
    exact Upholds.cons (Upholds.num fun x s h => h) <| Upholds.cons Upholds.skip <|
      Upholds.cons (Upholds.bin fun b s hb h => ⟨hb, h.2⟩) <| Upholds.cons Upholds.skip <|
      Upholds.cons (Upholds.bin fun b s hb h => ⟨h.1, hb⟩) <|
      Upholds.cons (Upholds.num fun x s h => h) <| Upholds.cons (Upholds.num fun x s h => h) <|
      Upholds.cons (Upholds.num fun x s h => h) <| Upholds.cons (Upholds.num fun x s h => h) <|
      Upholds.cons (Upholds.num fun x s h => h) <| Upholds.cons (Upholds.num fun x s h => h) <|
      Upholds.cons (Upholds.num fun x s h => h) <| Upholds.cons (Upholds.num fun x s h => h) <| Upholds.nil
  have h0 : PortSized ({ s with hwAddr := zeros 6 }, zeros 16) :=
    ⟨List.length_replicate, List.length_replicate⟩
  have h1 : Port.fields (s, zeros 16) r = let o := Enc.readFrom portTail ({ s with hwAddr := zeros 6 }, zeros 16) r
      ⟨o.val, 0 + o.n, o.err, o.rd⟩ := rfl
  have h2 : PortSized (Port.fields (s, zeros 16) r).val := by rw [h1]; exact (h _ r hr h0).1
  exact ⟨h2.1, h2.2⟩

private theorem ports_loop : ∀ (fuel : Nat) (acc : List Port) (n : Nat) (r : Rd), r.Ok .eof →
    r.content.length < fuel →
    ∃ l, (Ports.loop fuel acc n r).val = acc ++ l ∧ 64 * l.length ≤ r.content.length + 63 ∧
      ∀ p ∈ l, p.hwAddr.length = 6 ∧ p.name.length = 16 := by
  intro fuel
  induction fuel with
  | zero => intro acc n r _ h; omega
  | succ fuel ih =>
    intro acc n r hr hf
    obtain ⟨h1, h2, h3, h4⟩ := Port.flat Port.zero r hr
    have hs := port_size Port.zero r hr
    have he : r.content.length = 0 → (Port.readFrom Port.zero r).err = some .eof := by
      intro h0
      obtain ⟨s', r', h5, _, _⟩ := Port.eof.clean r hr (List.eq_nil_of_length_eq_zero h0)
      rw [h5]
    rcases ho : Port.readFrom Port.zero r with ⟨v, k, ee, r'⟩
    rw [ho] at h1 h2 h3 h4 hs he
    simp only at h1 h2 h3 h4 hs he
    by_cases hk : 64 ≤ r.content.length
    · obtain ⟨h5, h6⟩ := h3 hk
      subst h5
      have hl : r'.content.length = r.content.length - k := by rw [h2.content.2]; simp
      obtain ⟨l, e1, e2, e3⟩ := ih (acc ++ [v]) (n + k) r' h1 (by omega)
      refine ⟨v :: l, by simpa [Ports.loop, ho] using e1, by simp; omega, ?_⟩
      intro p hp
      rcases List.mem_cons.1 hp with hp | hp
      · exact hp ▸ hs
      · exact e3 p hp
    · obtain ⟨⟨e, h5, h6⟩, h7⟩ := h4 (by omega)
      subst h5
      rcases h6 with h6 | h6 <;> subst h6 <;> simp only [Ports.loop, ho]
      · exact ⟨[], by simp, by simp, by simp⟩
      · refine ⟨[v], rfl, ?_, by simpa using hs⟩
        have : r.content.length ≠ 0 := fun h => by simpa using he h
        simp; omega

/-- A list of ports has one port for each 64 bytes, and at most one more for what is left at the
end; each has an address of 6 bytes and a name of 16. -/
theorem ports_bounded (s : List Port) (r : Rd) (hr : r.Ok .eof) :
    ∃ l, (Ports.readFrom s r).val = s ++ l ∧ 64 * l.length ≤ r.content.length + 63 ∧
      ∀ p ∈ l, p.hwAddr.length = 6 ∧ p.name.length = 16 :=
  ports_loop _ s 0 r hr (by omega)

/-- The status of a port. -/
theorem port_status_bounded (s : PortStatus) (r : Rd) (hr : r.Ok .eof) :
    (PortStatus.readFrom s r).val.port = s.port ∨
      (PortStatus.readFrom s r).val.port.hwAddr.length = 6 ∧
        (PortStatus.readFrom s r).val.port.name.length = 16 := by
  let P : PortStatus → Prop := fun x => x.port = s.port ∨ x.port.hwAddr.length = 6 ∧ x.port.name.length = 16
  have hp : Upholds P (Enc.sub (fun s => s.port) (fun v s => { s with port := v }) Port.readFrom) :=
    fun x r hr _ => ⟨.inr (port_size x.port r hr), (Port.flat x.port r hr).1⟩
  have : Upholds P PortStatus.readFrom := by
    unfold PortStatus.readFrom
    exact Upholds.cons (Upholds.num fun x s h => h) <| Upholds.cons Upholds.skip <| Upholds.cons hp Upholds.nil
  exact (this s r hr (.inl rfl)).1

/-! ## Descriptions and multipart requests -/

/-- The five texts of a description. -/
def Description.texts (d : Description) : Nat :=
  d.manufacturer.length + d.hardware.length + d.software.length + d.serialNum.length + d.datapath.length

/-- A description is replaced when all its 1056 bytes have been read, and untouched otherwise. -/
theorem description_bounded (s : Description) (r : Rd) (hr : r.Ok .eof) :
    (Description.readFrom s r).val = s ∧ (Description.readFrom s r).err ≠ none ∨
      Description.texts (Description.readFrom s r).val = 1056 ∧ taken r (Description.readFrom s r) = 1056 := by
  rcases readFull_spec .eof 256 r hr with ⟨k1, r1, h1, a1, o1⟩ | ⟨k, r', h1, _, _⟩
  rotate_left
  · left
    simp only [Description.readFrom, Enc.withLocal, Enc.readFrom, Enc.bin, h1]
    exact ⟨trivial, fun h => by simp at h⟩
  rcases readFull_spec .eof 256 r1 o1 with ⟨k2, r2, h2, a2, o2⟩ | ⟨k, r', h2, _, _⟩
  rotate_left
  · left
    simp only [Description.readFrom, Enc.withLocal, Enc.readFrom, Enc.bin, h1, h2]
    exact ⟨trivial, fun h => by simp at h⟩
  rcases readFull_spec .eof 256 r2 o2 with ⟨k3, r3, h3, a3, o3⟩ | ⟨k, r', h3, _, _⟩
  rotate_left
  · left
    simp only [Description.readFrom, Enc.withLocal, Enc.readFrom, Enc.bin, h1, h2, h3]
    exact ⟨trivial, fun h => by simp at h⟩
  rcases readFull_spec .eof 32 r3 o3 with ⟨k4, r4, h4, a4, o4⟩ | ⟨k, r', h4, _, _⟩
  rotate_left
  · left
    simp only [Description.readFrom, Enc.withLocal, Enc.readFrom, Enc.bin, h1, h2, h3, h4]
    exact ⟨trivial, fun h => by simp at h⟩
  rcases readFull_spec .eof 256 r4 o4 with ⟨k5, r5, h5, a5, o5⟩ | ⟨k, r', h5, _, _⟩
  rotate_left
  · left
    simp only [Description.readFrom, Enc.withLocal, Enc.readFrom, Enc.bin, h1, h2, h3, h4, h5]
    exact ⟨trivial, fun h => by simp at h⟩
  right
  have A := (((a1.trans a2).trans a3).trans a4).trans a5
  refine ⟨?_, ?_⟩
  · simp only [Description.readFrom, Enc.withLocal, Enc.readFrom, Enc.bin, h1, h2, h3, h4, h5, Enc.assign]
    simp only [Description.texts, List.length_take]
    omega
  · refine taken_eq ?_
    simp only [Description.readFrom, Enc.withLocal, Enc.readFrom, Enc.bin, h1, h2, h3, h4, h5, Enc.assign]
    exact A

/-- The body of a multipart request is the bytes after its header; a request that ends before keeps
the body of the receiver. -/
theorem multipart_request_bounded (s : MultipartRequest) (r : Rd) (hr : r.Ok .eof) :
    (MultipartRequest.readFrom s r).val.body = s.body ∨
      ∃ b, (MultipartRequest.readFrom s r).val.body = .buffer b ∧
        b.length + 8 = taken r (MultipartRequest.readFrom s r) := by
  rcases readFull_spec .eof 2 r hr with ⟨k1, r1, h1, a1, o1⟩ | ⟨k, r', h1, _, _⟩
  rotate_left
  · left
    simp only [MultipartRequest.readFrom, Enc.readFrom, Enc.num, Wire.size, Enc.bin, h1]
  rcases readFull_spec .eof 2 r1 o1 with ⟨k2, r2, h2, a2, o2⟩ | ⟨k, r', h2, _, _⟩
  rotate_left
  · left
    simp only [MultipartRequest.readFrom, Enc.readFrom, Enc.num, Wire.size, Enc.bin, h1, h2]
  rcases readFull_spec .eof 4 r2 o2 with ⟨k3, r3, h3, a3, o3⟩ | ⟨k, r', h3, _, _⟩
  rotate_left
  · left
    simp only [MultipartRequest.readFrom, Enc.readFrom, Enc.num, Enc.skip, Wire.size, Enc.bin, h1, h2, h3]
  right
  obtain ⟨r4, h4, a4, o4⟩ := readAll_spec .eof r3 o3
  have A := ((a1.trans a2).trans a3).trans a4
  refine ⟨r3.content, ?_, ?_⟩
  · simp only [MultipartRequest.readFrom, Enc.readFrom, Enc.num, Enc.skip, Wire.size, Enc.bin, h1, h2, h3,
      Enc.rest, h4, skipEOF]
  · rw [taken_eq (m := 2 + 2 + 4 + r3.content.length)]
    · omega
    · simp only [MultipartRequest.readFrom, Enc.readFrom, Enc.num, Enc.skip, Wire.size, Enc.bin, h1, h2, h3, Enc.rest, h4]
      exact A

/-! ## Cases -/

/-- 64 bytes of a port and 3 more: an error, and two ports, the second without content. -/
example :
    let r := Rd.src (zeros 67) [5, 0, 7] .eof true
    r.Ok .eof ∧ (Ports.readFrom [] r).err = some .unexpectedEOF ∧ (Ports.readFrom [] r).val.length = 2 :=
  ⟨rfl, by decide +kernel⟩

/-- 64 bytes of a port and its number again: a list of one port, without an error. -/
example :
    let r := Rd.src (zeros 68) [5, 0, 7] .eof true
    r.Ok .eof ∧ (Ports.readFrom [] r).err = none ∧ (Ports.readFrom [] r).val.length = 1 :=
  ⟨rfl, by decide +kernel⟩

/-- A multipart request with a body of three bytes. -/
example :
    let r := Rd.src [0, 3, 0, 0, 0, 0, 0, 0, 7, 8, 9] [2, 2] .eof false
    r.Ok .eof ∧ (MultipartRequest.readFrom ⟨0, 0, .nil⟩ r).val = ⟨3, 0, .buffer [7, 8, 9]⟩ ∧
      taken r (MultipartRequest.readFrom ⟨0, 0, .nil⟩ r) = 11 := ⟨rfl, by decide +kernel⟩

end Verif.Props
