import Verif.Spec.Tables
import Verif.Props.C49_C52
import Verif.Props.C41_C48

/-! # Helper lemmas: tables made of several sections -/

namespace Mpegts
open Spec Spec.Table

/-! ## Sending -/

/-- Sections from bodies: section_number and last_section_number filled in, length and CRC added. -/
def numbered (last : UInt8) : (n : Nat) → List (List UInt8) → List (List UInt8)
  | _, [] => []
  | n, b :: r => complete ((b.set 6 (UInt8.ofNat n)).set 7 last) :: numbered last (n + 1) r

theorem stream_mod (pid a : Nat) (l : List (List UInt8)) : stream pid (a % 16) l = stream pid a l := by
  induction l generalizing a with
  | nil => rfl
  | cons x l ih =>
    rw [stream, stream, ← ih (a % 16 + _), ← ih (a + _), Nat.mod_add_mod]
    congr 1
    unfold packets packetAt
    refine List.map_congr_left fun i _ => ?_
    rw [Nat.mod_add_mod]

theorem psiDemuxLoop_eq (p : Profile) (pid : UInt16) (hp : pid.toNat < 8192) (last : UInt8) (L : List Psi)
    (h0 : ∀ s ∈ L, s.size = 0) (h8 : ∀ s ∈ L, 8 ≤ s.buffer.length) (hl : ∀ s ∈ L, s.buffer.length ≤ 4094) (n : Nat) (cc : UInt8)
    (hc : cc.toNat < 16) (dst : List UInt8) :
    psiDemuxLoop p pid last n L cc dst = .ok
      (UInt8.ofNat ((cc.toNat + streamCount (numbered last n (L.map (·.buffer)))) % 16),
       dst ++ (stream pid.toNat cc.toNat (numbered last n (L.map (·.buffer)))).flatten) := by
  induction L generalizing n cc dst with
  | nil =>
    simp [psiDemuxLoop, numbered, stream, streamCount, Nat.mod_eq_of_lt hc]
  | cons s r ih =>
    have e0 := h0 s List.mem_cons_self
    have e8 := h8 s List.mem_cons_self
    have el := hl s List.mem_cons_self
    rw [psiDemuxLoop, setIdx_ok _ (by omega), ok_bind, setIdx_ok _ (by rw [List.length_set]; omega), ok_bind]
    have lb : ((s.buffer.set 6 (UInt8.ofNat n)).set 7 last).length = s.buffer.length := by simp
    rw [C49_finalize p { s with buffer := (s.buffer.set 6 (UInt8.ofNat n)).set 7 last } e0 (by simp only [lb]; omega)
      (by simp only [lb]; omega), ok_bind]
    simp only [List.map_cons, numbered, stream]
    have lc : (complete ((s.buffer.set 6 (UInt8.ofNat n)).set 7 last)).length = s.buffer.length + 4 := by
      rw [complete_length (by omega), lb]
    generalize complete ((s.buffer.set 6 (UInt8.ofNat n)).set 7 last) = sec at *
    rw [C40_demux p _ dst (by simp only [lb]; omega) (by simp only [lb]; omega) (by exact hp) (by exact hc), ok_bind]
    simp only [lb]
    rw [← lc, List.take_length, ih (fun x hx => h0 x (List.mem_cons_of_mem _ hx)) (fun x hx => h8 x (List.mem_cons_of_mem _ hx))
      (fun x hx => hl x (List.mem_cons_of_mem _ hx)) _ _ (by rw [UInt8.toNat_ofNat']; omega)]
    have e : (UInt8.ofNat ((cc.toNat + packetCount sec.length) % 16)).toNat = (cc.toNat + packetCount sec.length) % 16 := by
      rw [UInt8.toNat_ofNat']; omega
    rw [e, stream_mod]
    simp only [streamCount, List.map_cons, List.sum_cons, List.flatten_append, List.append_assoc, Nat.mod_add_mod,
      Nat.add_assoc]

/-! ## Receiving -/

theorem receive_nil {α : Type} (parse : α → Psi → R α) (p : Profile) (t : α) (s : Psi) :
    receive parse p t s [] = .ok (t, s) := rfl
theorem receive_cons {α : Type} (parse : α → Psi → R α) (p : Profile) (t : α) (s : Psi) (ts : List UInt8)
    (l : List (List UInt8)) :
    receive parse p t s (ts :: l) = (do let s ← s.mux p ts; let t ← parse t s; receive parse p t s l) := by
  simp [receive]
theorem receive_append {α : Type} (parse : α → Psi → R α) (p : Profile) (t : α) (s : Psi) (a b : List (List UInt8)) :
    receive parse p t s (a ++ b) = (do let st ← receive parse p t s a; receive parse p st.1 st.2 b) := by
  simp [receive]

/-- Receiving the packets of one section parses that section once. -/
theorem receive_section {α : Type} (parse : α → Psi → R α) (p : Profile) (t : α) (s : Psi) (pid cc : Nat) (sec : List UInt8)
    (hs : IsSection sec) (hp : pid < 8192)
    (hi : ∀ psi : Psi, psi.size = sec.length → psi.buffer.length < sec.length → 183 ≤ psi.buffer.length → parse t psi = .ok t) :
    receive parse p t s (packets pid cc sec) = (do
      let psi : Psi := { s with buffer := sec, size := sec.length, cc := UInt8.ofNat ((cc + packetCount sec.length - 1) % 16) }
      let t ← parse t psi
      pure (t, psi)) := by
  have h3 := hs.1
  have key : ∀ n i (u : Psi), i + 1 + n = packetCount sec.length → u.buffer = sec.take (184 * i + 183) →
      u.size = sec.length → u.cc = UInt8.ofNat ((cc + i) % 16) →
      (do let t ← parse t u; receive parse p t u ((List.range' (i + 1) n).map (packetAt pid cc sec))) = (do
        let psi : Psi := { u with buffer := sec, cc := UInt8.ofNat ((cc + packetCount sec.length - 1) % 16) }
        let t ← parse t psi
        pure (t, psi)) := by
    intro n
    induction n with
    | zero =>
      intro i u hn hb hz hc
      have e1 : u.buffer = sec := by rw [hb, List.take_of_length_le (by unfold packetCount at hn; omega)]
      have e2 : u.cc = UInt8.ofNat ((cc + packetCount sec.length - 1) % 16) := by rw [hc, ← hn]; rfl
      have e : u = { u with buffer := sec, cc := UInt8.ofNat ((cc + packetCount sec.length - 1) % 16) } := by
        conv => rhs; rw [← e2]
        conv => rhs; rw [← e1]
      rw [List.range'_zero, List.map_nil]
      simp only [← e]
      rfl
    | succ n ih =>
      intro i u hn hb hz hc
      have hlt : 184 * i + 183 < sec.length := by unfold packetCount at hn; omega
      rw [hi u hz (by rw [hb, List.length_take]; omega) (by rw [hb, List.length_take]; omega), ok_bind]
      rw [List.range'_succ, List.map_cons, receive_cons, Psi.mux_next p pid cc sec hs hp u i hb hz hc, ok_bind,
        ih (i + 1) { u with buffer := sec.take (184 * (i + 1) + 183), cc := UInt8.ofNat ((cc + (i + 1)) % 16) } (by omega) rfl hz rfl]
  have hn : packetCount sec.length = (packetCount sec.length - 1) + 1 := by unfold packetCount; omega
  rw [packets, List.range_eq_range', hn, List.range'_succ, List.map_cons, receive_cons,
    Psi.mux_first p pid cc sec hs hp s, ok_bind, key _ 0 _ (by omega) rfl rfl rfl, ← hn]

/-- Receiving the packets of several sections parses each of them once, in order. -/
theorem receive_stream {α β : Type} (parse : α → Psi → R α) (p : Profile) (pid : Nat) (hp : pid < 8192)
    (l : List β) (f : β → List UInt8) (hs : ∀ x ∈ l, IsSection (f x)) (step : α → β → α)
    (hpar : ∀ t x, x ∈ l → ∀ psi : Psi, psi.buffer = f x → psi.size = (f x).length → parse t psi = .ok (step t x))
    (hi : ∀ t (psi : Psi), (∃ x ∈ l, psi.size = (f x).length) → psi.buffer.length < psi.size → 183 ≤ psi.buffer.length →
      parse t psi = .ok t)
    (t : α) (s : Psi) (cc : Nat) :
    ∃ s', receive parse p t s (stream pid cc (l.map f)) = .ok (l.foldl step t, s') := by
  induction l generalizing t s cc with
  | nil => exact ⟨s, rfl⟩
  | cons x r ih =>
    rw [List.map_cons, stream, receive_append, receive_section parse p t s pid cc (f x) (hs x List.mem_cons_self) hp
      (fun psi h1 h2 h3 => hi t psi ⟨x, List.mem_cons_self, h1⟩ (by omega) h3)]
    simp only []
    rw [hpar t x List.mem_cons_self _ rfl rfl, ok_bind, pure_eq_ok, ok_bind]
    obtain ⟨s', h⟩ := ih (fun y hy => hs y (List.mem_cons_of_mem _ hy)) (fun t y hy => hpar t y (List.mem_cons_of_mem _ hy))
      (fun t psi ⟨y, hy, e⟩ => hi t psi ⟨y, List.mem_cons_of_mem _ hy, e⟩) (step t x) { s with
        buffer := f x
        size := (f x).length
        cc := UInt8.ofNat ((cc + packetCount (f x).length - 1) % 16) } (cc + packetCount (f x).length)
    exact ⟨s', h⟩

theorem packets_isTsPacket (pid cc : Nat) (hp : pid < 8192) (sec : List UInt8) :
    ∀ pk ∈ packets pid cc sec, IsTsPacket pid pk := by
  intro pk h
  refine ⟨(packets_structure _ _ _).2.1 pk h, ?_⟩
  obtain ⟨i, hi, rfl⟩ := List.getElem_of_mem h
  obtain ⟨rest, e⟩ := (packets_structure pid cc sec).2.2.1 i hi
  rw [e]
  have hb : ∀ b : Bool, bit b ≤ 1 := by decide
  generalize hw : (Header.mk 0x47 false (decide (i = 0)) false pid 0 false true ((cc + i) % 16)).word = w
  have h3 : w / 256 ^ 3 = 0x47 ∧ w / 256 ^ 2 % 256 % 32 * 256 + w / 256 ^ 1 % 256 = pid := by
    have := hb (decide (i = 0))
    subst hw
    simp only [Header.word, show bit false = 0 from rfl, show bit true = 1 from rfl]
    omega
  simp only [Header.encode, hw, beBytes, pidOf, h3.1, List.cons_append, List.head?_cons]
  refine ⟨rfl, ?_⟩
  simp only [List.getD_cons_succ, List.getD_cons_zero, UInt8.toNat_ofNat']
  exact h3.2

theorem stream_packets (pid cc : Nat) (hp : pid < 8192) (secs : List (List UInt8)) :
    ∀ pk ∈ stream pid cc secs, IsTsPacket pid pk := by
  induction secs generalizing cc with
  | nil => intro pk h; cases h
  | cons s r ih =>
    intro pk h
    rcases List.mem_append.1 h with h | h
    · exact packets_isTsPacket _ _ hp _ pk h
    · exact ih _ pk h

/-! ## Distributing items over sections -/

/-- Put an item in front of the first group. -/
def pushHead {α : Type} (x : α) : List (List α) → List (List α)
  | [] => [[x]]
  | g :: gs => (x :: g) :: gs

/-- Greedy distribution; `used` bytes of the current section are taken. -/
def fill {α : Type} (size : α → Nat) (limit next : Nat) : (used : Nat) → List α → List (List α)
  | _, [] => [[]]
  | used, x :: r =>
    if used + size x ≤ limit then pushHead x (fill size limit next (used + size x) r)
    else [] :: pushHead x (fill size limit next (next + size x) r)

theorem fill_ne {α : Type} (size : α → Nat) (limit next used : Nat) (l : List α) : fill size limit next used l ≠ [] := by
  cases l with
  | nil => simp [fill]
  | cons x r =>
    rw [fill]; split
    · cases fill size limit next (used + size x) r <;> simp [pushHead]
    · simp

theorem pushHead_flatten {α : Type} (x : α) (gs : List (List α)) : (pushHead x gs).flatten = x :: gs.flatten := by
  cases gs <;> simp [pushHead]

theorem pushHead_tail {α : Type} (x : α) (gs : List (List α)) : (pushHead x gs).tail = gs.tail := by
  cases gs <;> simp [pushHead]

theorem fill_congr {α : Type} (size size' : α → Nat) (limit next : Nat) (items : List α) (h : ∀ i ∈ items, size i = size' i) (u : Nat) :
    fill size limit next u items = fill size' limit next u items := by
  induction items generalizing u with
  | nil => rfl
  | cons x r ih =>
    have ih := fun u => ih (fun i hi => h i (List.mem_cons_of_mem _ hi)) u
    simp only [fill, h x List.mem_cons_self, ih]

theorem packed_fill {α : Type} (size : α → Nat) (limit next : Nat) (items : List α) (hs : ∀ x ∈ items, next + size x ≤ limit)
    (used : Nat) (hu : used ≤ limit) :
    Packed size limit used next items (fill size limit next used items) := by
  induction items generalizing used with
  | nil =>
    refine ⟨rfl, by simp [fill], by simp [fill], ?_, ?_⟩
    · intro i g h
      match i with
      | 0 => simp [fill] at h; subst h; simpa using hu
      | i + 1 => simp [fill] at h
    · intro i g h x hg hh; simp [fill] at hh
  | cons x r ih =>
    rw [fill]
    split
    · next hfit =>
      have P := ih (fun y hy => hs y (List.mem_cons_of_mem _ hy)) (used + size x) hfit
      have hne := P.nonempty
      obtain ⟨g0, gs, hgs⟩ := List.exists_cons_of_ne_nil hne
      rw [hgs] at P ⊢
      refine ⟨?_, by simp [pushHead], ?_, ?_, ?_⟩
      · rw [pushHead_flatten, P.all]
      · rw [pushHead_tail]; exact P.progress
      · intro i g h
        match i with
        | 0 =>
          simp [pushHead] at h; subst h
          have := P.fits 0 g0 rfl
          simp at this ⊢; omega
        | i + 1 => exact P.fits (i + 1) g h
      · intro i g h y hg hh hy
        match i with
        | 0 =>
          simp [pushHead] at hg; subst hg
          have := P.full 0 g0 h y rfl hh hy
          simp at this ⊢; omega
        | i + 1 => exact P.full (i + 1) g h y hg hh hy
    · next hfit =>
      have P := ih (fun y hy => hs y (List.mem_cons_of_mem _ hy)) (next + size x) (hs x List.mem_cons_self)
      have hne := P.nonempty
      obtain ⟨g0, gs, hgs⟩ := List.exists_cons_of_ne_nil hne
      rw [hgs] at P ⊢
      refine ⟨?_, by simp, ?_, ?_, ?_⟩
      · rw [List.flatten_cons, pushHead_flatten, P.all]; rfl
      · intro g hg
        simp only [pushHead, List.tail_cons, List.mem_cons] at hg
        rcases hg with rfl | hg
        · simp
        · exact P.progress g hg
      · intro i g h
        match i with
        | 0 => simp at h; subst h; simpa using hu
        | 1 =>
          simp [pushHead] at h; subst h
          have := P.fits 0 g0 rfl
          simp at this ⊢; omega
        | i + 2 =>
          have := P.fits (i + 1) g h
          simpa using this
      · intro i g h y hg hh hy
        match i with
        | 0 =>
          simp at hg; subst hg
          simp [pushHead] at hh; subst hh
          simp at hy; subst hy
          simp; omega
        | 1 =>
          simp [pushHead] at hg; subst hg
          have := P.full 0 g0 h y rfl hh hy
          simp at this ⊢; omega
        | i + 2 =>
          have := P.full (i + 1) g h y hg hh hy
          simpa using this

end Mpegts
