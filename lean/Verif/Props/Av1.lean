import Verif.Proofs.Av1Emit
import Verif.Proofs.PacketSafe
/-
  C23, C24 for AV1 (RTP payload format for AV1).
-/
namespace Str0m.Av1
open Str0m.Packet (PErr runDepack Safe)
open Str0m.Packet.Spec (FitsMtu)
open Str0m.Vla (encodeLeb)
open Spec

theorem emit_run (ls : List (SObu × Bool)) (hok : ∀ x ∈ ls, Ok x.1) (hne : ls ≠ []) (mtu : Nat) (h1 : 2 ≤ mtu) (h2 : mtu < 2 ^ 62) :
    ∃ s, emitGo (mtu - 1) ((parsed ls).map (·.size)) 0 ⟨[], Pk.new 0, mtu - 1⟩ = .ok s ∧
      Chain (ls.map (·.1)) (mtu - 1) (s.packets ++ [s.cur]) (ls.map (·.1)) 0 [] 0 := by
  have hok' : ∀ a ∈ ls.map (·.1), Ok a := by
    intro a ha
    obtain ⟨x, hx, rfl⟩ := List.mem_map.1 ha
    exact hok x hx
  have hsz : (parsed ls).map (·.size) = (ls.map (·.1)).map (fun a => (unsized a).length) := by
    unfold parsed
    rw [List.map_map, List.map_map]
    refine List.map_congr_left (fun x _ => ?_)
    obtain ⟨o, s⟩ := x
    show 1 + (if o.ext.isSome then 1 else 0) + o.payload.length = (unsized o).length
    unfold unsized
    cases o.ext <;> simp <;> omega
  have hI : Inv (ls.map (·.1)) (mtu - 1) 0 ⟨[], Pk.new 0, mtu - 1⟩ := ⟨rfl, Or.inl ⟨rfl, rfl⟩⟩
  obtain ⟨s, e, hs⟩ := emitGo_spec hok' (by omega : 1 ≤ mtu - 1) (by omega : mtu - 1 < 2 ^ 62) (ls.map (·.1)) 0 _ rfl hI
  refine ⟨s, by rw [hsz, e], ?_⟩
  rcases hs.cover with ⟨h, -⟩ | ⟨os1, o1, dn, c1, c2, c3⟩
  · exfalso
    rw [List.length_map] at h
    exact hne (List.length_eq_zero_iff.1 (by omega))
  · have := Chain.snoc c1 c2
    rw [c3, List.drop_of_length_le (by omega)] at this
    exact this

/-- C23, AV1: for every frame of OBUs in the low overhead format (legal types, legal size fields, the last
perhaps without one), every MTU over 1 and every state of the receiver: the frame is packetized, the packets fit the MTU,
the first is a partition head, some packet is seen as a key frame by the detector iff the first
OBU that travels is a sequence header, and a receiver that gets the packets in order appends
exactly the OBUs that travel, in order, each with its shortest size field, and says key frame in
the same cases (or if it knew before). -/
theorem C23_av1 (mtu : Nat) (hm : 2 ≤ mtu) (hm2 : mtu < 2 ^ 62) (us : List (SObu × List Byte)) (last : Option SObu)
    (hu : ∀ x ∈ us, x.1.ty < 16 ∧ IsLeb x.2 x.1.payload.length ∧ x.1.payload.length + 2 < 2 ^ 62)
    (hl : ∀ o, last = some o → o.ty < 16 ∧ o.payload.length + 2 < 2 ^ 62) :
    ∃ pkts, packetize mtu (lowOverhead us last) = .ok pkts ∧ FitsMtu mtu pkts ∧
      (pkts = [] ↔ (us.map (·.1) ++ last.toList).filter Kept = []) ∧
      (∀ q, pkts.head? = some q → head q = true) ∧
      ((∃ q ∈ pkts, detect q = true) ↔ ∃ o os, (us.map (·.1) ++ last.toList).filter Kept = o :: os ∧ o.ty = 1) ∧
      ∀ d out e, ∃ d' k, runDepack depacketize pkts d out e
          = .ok (d', out ++ delivered ((us.map (·.1) ++ last.toList).filter Kept), k) ∧
        (pkts ≠ [] → d' = ⟨[], 0⟩) ∧
        (k = some true ↔ e = some true ∨ ∃ o os, (us.map (·.1) ++ last.toList).filter Kept = o :: os ∧ o.ty = 1) := by
  have hp := parseObus_low us last (fun x hx => ⟨(hu x hx).1, (hu x hx).2.1⟩) (fun o ho => (hl o ho).1)
  have hparsed : ((us.map (·.1)).filter (fun o => Kept o)).map (toObu · true) ++ ((last.toList).filter (fun o => Kept o)).map (toObu · false)
      = parsed (((us.map (·.1)).filter (fun o => Kept o)).map (·, true) ++ ((last.toList).filter (fun o => Kept o)).map (·, false)) := by
    unfold parsed
    rw [List.map_append, List.map_map, List.map_map]
    rfl
  have hmap : (((us.map (·.1)).filter (fun o => Kept o)).map (·, true) ++ ((last.toList).filter (fun o => Kept o)).map (·, false)).map (·.1)
      = (us.map (·.1) ++ last.toList).filter Kept := by
    rw [List.filter_append, List.map_append, List.map_map, List.map_map]
    congr 1 <;> exact List.map_id _
  have hok0 : ∀ o, o ∈ us.map (·.1) ++ last.toList → o.ty < 16 ∧ (unsized o).length < 2 ^ 62 := by
    intro o ho
    have hlen : (unsized o).length ≤ o.payload.length + 2 := by unfold unsized; cases o.ext <;> simp
    rcases List.mem_append.1 ho with h | h
    · obtain ⟨x, hx, rfl⟩ := List.mem_map.1 h
      have := hu x hx
      exact ⟨this.1, by omega⟩
    · have := hl o (by simpa using h)
      exact ⟨this.1, by omega⟩
  rw [hparsed] at hp
  generalize hls : ((us.map (·.1)).filter (fun o => Kept o)).map (·, true) ++ ((last.toList).filter (fun o => Kept o)).map (·, false) = ls at *
  rw [← hmap]
  have hok : ∀ x ∈ ls, Ok x.1 := by
    intro x hx
    have : x.1 ∈ (us.map (·.1) ++ last.toList).filter Kept := by rw [← hmap]; exact List.mem_map_of_mem hx
    obtain ⟨h1, h2⟩ := List.mem_filter.1 this
    obtain ⟨h3, h4⟩ := hok0 _ h1
    exact ⟨h3, by simpa using h2, h4⟩
  unfold packetize
  by_cases hne : ls = []
  · subst hne
    have h0 : (if lowOverhead us last = [] ∨ mtu ≤ 1 then (.ok [] : Res PErr (List (List Byte))) else do
      let obus ← parseObus (lowOverhead us last)
      if obus = [] then .ok []
      else do
        let s ← emitGo (mtu - 1) (obus.map (·.size)) 0 ⟨[], Pk.new 0, mtu - 1⟩
        writeAll obus (s.packets ++ [s.cur]) true) = .ok [] := by
      split
      · rfl
      · rw [hp]; rfl
    refine ⟨[], h0, by simp [FitsMtu], by simp, by simp, by simp, ?_⟩
    intro d out e
    exact ⟨d, e, by simp [runDepack, delivered], by simp, by simp⟩
  · have hnl : ¬ (lowOverhead us last = [] ∨ mtu ≤ 1) := by
      rintro (h | h)
      · rw [h] at hp
        have : ls = [] := by
          have h2 : parsed ls = [] := (Res.ok.inj hp).symm
          simpa [parsed] using h2
        exact hne this
      · omega
    rw [if_neg hnl, hp, Res.bind_def, Res.bind_ok, if_neg (by simpa [parsed] using hne)]
    obtain ⟨s, e1, hc⟩ := emit_run ls hok hne mtu hm hm2
    rw [e1, Res.bind_def, Res.bind_ok]
    have hos : ∀ a ∈ ls.map (·.1), Ok a := by
      intro a ha
      obtain ⟨x, hx, rfl⟩ := List.mem_map.1 ha
      exact hok x hx
    obtain ⟨pkts, g1, g2, g3, g4, g5, g6⟩ := run_chain ls hok (mtu - 1) _ _ 0 true hc (fun _ => rfl) hos
    have hhd : ((ls.map (·.1)).head?.map (·.ty) = some 1) ↔ ∃ o os, ls.map (·.1) = o :: os ∧ o.ty = 1 := by
      cases ls.map (·.1) with
      | nil => simp
      | cons o os => simp
    have hpne : pkts ≠ [] := by
      intro h
      rw [h] at g3
      simp at g3
    refine ⟨pkts, g1, ?_, ?_, g4 rfl, ?_, ?_⟩
    · intro q hq
      have := g2 q hq
      omega
    · constructor
      · intro h; exact absurd h hpne
      · intro h; exact absurd (List.map_eq_nil_iff.1 h) hne
    · rw [g5, ← hhd]; simp
    · intro d out e
      refine ⟨_, _, g6 d out e (by simp) (by simp), fun _ => rfl, ?_⟩
      rw [← hhd]
      have : (e.getD false = true) ↔ e = some true := by
        cases e with
        | none => simp
        | some v => cases v <;> simp
      rw [Option.some.injEq, Bool.or_eq_true, this, decide_eq_true_eq]
      constructor
      · rintro (⟨h, -⟩ | h)
        · exact Or.inr h
        · exact Or.inl h
      · rintro (h | h)
        · exact Or.inr h
        · exact Or.inl ⟨h, rfl⟩

/-- A key frame: temporal delimiter (with size), sequence header with an extension byte, frame. -/
def exFrame : List (SObu × List Byte) :=
  [(⟨2, none, false, []⟩, [u8 0]), (⟨1, some (u8 32), false, [u8 10, u8 11, u8 12]⟩, [u8 131, u8 0])]

def exLast : Option SObu := some ⟨6, none, false, List.replicate 20 (u8 7)⟩

/-- The hypotheses of `C23_av1` hold for a frame with a long size field that needs fragments. -/
theorem C23_av1_example : (∀ x ∈ exFrame, x.1.ty < 16 ∧ IsLeb x.2 x.1.payload.length ∧ x.1.payload.length + 2 < 2 ^ 62) ∧
    (∀ o, exLast = some o → o.ty < 16 ∧ o.payload.length + 2 < 2 ^ 62) ∧
    (exFrame.map (·.1) ++ exLast.toList).filter Kept = [⟨1, some (u8 32), false, [u8 10, u8 11, u8 12]⟩, ⟨6, none, false, List.replicate 20 (u8 7)⟩] ∧
    ∃ a b c d, packetize 8 (lowOverhead exFrame exLast) = .ok [a, b, c, d] := by
  refine ⟨?_, ?_, ?_, ?_⟩
  · intro x hx
    rcases List.mem_cons.1 hx with rfl | hx
    · exact ⟨by decide +kernel, ⟨[], u8 0, rfl, by decide +kernel, by decide +kernel, by decide +kernel, by decide +kernel⟩, by decide +kernel⟩
    · rcases List.mem_cons.1 hx with rfl | hx
      · exact ⟨by decide +kernel, ⟨[u8 131], u8 0, rfl, by decide +kernel, by decide +kernel, by decide +kernel, by decide +kernel⟩, by decide +kernel⟩
      · cases hx
  · intro o ho
    cases ho
    exact ⟨by decide +kernel, by decide +kernel⟩
  · rfl
  · exact ⟨_, _, _, _, rfl⟩

/-! ### C24 -/

theorem parseObusGo_noPanic : ∀ (fuel : Nat) (b : List Byte), (parseObusGo fuel b).NoPanic := by
  intro fuel
  induction fuel with
  | zero => intro b; exact trivial
  | succ n ih =>
    intro b
    cases b with
    | nil => exact trivial
    | cons h rest =>
      show (parseExt h rest >>= fun e => parseBody h e.2 >>= fun b => parseObusGo n b.2 >>= fun tail => pure _).NoPanic
      refine Res.NoPanic.bind ?_ (fun e _ => Res.NoPanic.bind ?_ (fun b _ => Res.NoPanic.bind (ih _) (fun _ _ => trivial)))
      · unfold parseExt
        split
        · split <;> exact trivial
        · exact trivial
      · unfold parseBody
        split
        · split
          · exact trivial
          · split <;> exact trivial
        · exact trivial

theorem parseObus_noPanic (b : List Byte) : (parseObus b).NoPanic := parseObusGo_noPanic _ _

theorem writeObu_noPanic (d : D) (out : List Byte) (h : d.length < 2 ^ 63) : (writeObu d out).NoPanic := by
  unfold writeObu
  refine Res.NoPanic.bind (parseObus_noPanic _) (fun obus _ => ?_)
  cases obus with
  | nil => exact trivial
  | cons o os =>
    dsimp only
    rw [if_neg]
    · generalize d.length - 1 - (if hasExt o.header then 1 else 0) = len
      by_cases hb : len > d.buffer.length
      · rw [if_pos hb]; exact trivial
      · rw [if_neg hb]
        unfold csub
        rw [if_pos (by omega), Res.bind_def, Res.bind_ok, Res.slice_of_le (by omega) (by omega)]
        exact trivial
    · have hl : (encodeLeb (d.length - 1 - (if hasExt o.header then 1 else 0))).length ≤ 9 := by
        have h2 : d.length - 1 - (if hasExt o.header then 1 else 0) < 2 ^ 63 := by omega
        rw [encodeLeb_min h2]
        exact lebMin_length_le 8 _ (lt_of_lt_of_le h2 (by norm_num))
      split
      · simp
      · omega

theorem getLebGo_len : ∀ (fuel i acc : Nat) (b : List Byte) (n : Nat) (r : List Byte), getLebGo fuel i acc b = some (n, r) → r.length < b.length := by
  intro fuel
  induction fuel with
  | zero => intro i acc b n r h; cases h
  | succ f ih =>
    intro i acc b n r h
    cases b with
    | nil => cases h
    | cons x xs =>
      unfold getLebGo at h
      split at h
      · cases h; simp
      · have := ih _ _ _ _ _ h
        simp; omega

theorem depackGo_noPanic (z y : Bool) (count : Nat) : ∀ (fuel idx : Nat) (rest : List Byte) (d : D) (out : List Byte),
    d.length + rest.length < 2 ^ 63 → (depackGo z y count fuel idx rest d out).NoPanic := by
  intro fuel
  induction fuel with
  | zero => intros; exact trivial
  | succ n ih =>
    intro idx rest d out h
    unfold depackGo
    split
    · exact trivial
    · have he : (elemLen count idx rest).NoPanic := by
        unfold elemLen
        split
        · exact trivial
        · split <;> exact trivial
      refine Res.NoPanic.bind he (fun e hE => ?_)
      have hlen : e.2.1.length ≤ rest.length := by
        unfold elemLen at hE
        split at hE
        · cases hE; exact le_refl _
        · split at hE
          · cases hE
          · rename_i hg
            cases hE
            exact le_of_lt (getLebGo_len _ _ _ _ _ _ hg)
      split
      · exact trivial
      · split
        · exact trivial
        · have hd : (e.2.1.drop e.1).length = e.2.1.length - e.1 := List.length_drop ..
          split
          · exact ih _ _ _ _ (by omega)
          · rw [Res.upto_of_le (by omega), Res.bind_def, Res.bind_ok]
            dsimp only
            split
            · exact trivial
            · refine Res.NoPanic.bind (writeObu_noPanic _ _ (by show d.length + e.1 < _; omega)) (fun o _ => ?_)
              cases o with
              | none => exact ih _ _ _ _ (by show 0 + _ < _; omega)
              | some o' =>
                dsimp only
                split
                · exact trivial
                · exact ih _ _ _ _ (by show 0 + _ < _; omega)

/-- C24, AV1 receiver: no packet, in no state of the receiver that holds less than 2^62 bytes, makes the
depacketizer panic. -/
theorem C24_av1 (d : D) (packet out : List Byte) (extra : Option Bool) (h1 : d.length < 2 ^ 62) (h2 : packet.length < 2 ^ 62) :
    (depacketize d packet out extra).NoPanic := by
  unfold depacketize
  cases packet with
  | nil => exact trivial
  | cons h rest =>
    refine Res.NoPanic.bind (depackGo_noPanic _ _ _ _ _ _ _ _ ?_) (fun r _ => trivial)
    simp only [List.length_cons] at h2
    split
    · show 0 + _ < _; omega
    · omega

/-! ### The packetizer on bytes that are no frame -/

/-- An OBU as the parser makes them. -/
def Formed (o : Obu) : Prop :=
  included o.header = true ∧ (hasExt o.header = false → o.ext = u8 0) ∧ o.size = 1 + (if hasExt o.header then 1 else 0) + o.payload.length

theorem parseObusGo_formed : ∀ (fuel : Nat) (b : List Byte) (os : List Obu), parseObusGo fuel b = .ok os →
    ∀ o ∈ os, Formed o ∧ o.size ≤ b.length := by
  intro fuel
  induction fuel with
  | zero => intro b os h; cases h; simp
  | succ n ih =>
    intro b os h
    cases b with
    | nil => cases h; simp
    | cons hd rest =>
      have h : (parseExt hd rest >>= fun e => parseBody hd e.2 >>= fun b => parseObusGo n b.2 >>= fun tail =>
        pure (if included hd then ⟨hd, e.1, b.1, 1 + (if hasExt hd then 1 else 0) + b.1.length⟩ :: tail else tail)) = .ok os := h
      cases h1 : parseExt hd rest with
      | err _ => rw [h1] at h; cases h
      | panic => rw [h1] at h; cases h
      | ok e =>
        rw [h1, Res.bind_def, Res.bind_ok] at h
        have he : e.2.length + (if hasExt hd then 1 else 0) = rest.length ∧ (hasExt hd = false → e.1 = u8 0) := by
          unfold parseExt at h1
          split at h1
          · rename_i hx
            split at h1
            · cases h1
            · cases h1; simp [hx]
          · rename_i hx
            cases h1; simp [hx]
        cases h2 : parseBody hd e.2 with
        | err _ => rw [h2] at h; cases h
        | panic => rw [h2] at h; cases h
        | ok b =>
          rw [h2, Res.bind_def, Res.bind_ok] at h
          have hb : b.1.length + b.2.length ≤ e.2.length := by
            unfold parseBody at h2
            split at h2
            · split at h2
              · cases h2
              · rename_i hg
                have := getLebGo_len _ _ _ _ _ _ hg
                split at h2
                · cases h2
                · cases h2
                  simp only [List.length_take, List.length_drop]
                  omega
            · cases h2; simp
          cases h3 : parseObusGo n b.2 with
          | err _ => rw [h3] at h; cases h
          | panic => rw [h3] at h; cases h
          | ok tail =>
            rw [h3, Res.bind_def, Res.bind_ok] at h
            have ht := ih _ _ h3
            have ht' : ∀ o ∈ tail, Formed o ∧ o.size ≤ (hd :: rest).length := by
              intro o ho
              refine ⟨(ht o ho).1, ?_⟩
              have := (ht o ho).2
              rw [List.length_cons]
              omega
            have h : (if included hd then (⟨hd, e.1, b.1, 1 + (if hasExt hd then 1 else 0) + b.1.length⟩ : Obu) :: tail else tail) = os := Res.ok.inj h
            subst h
            split
            · rename_i hi
              intro o ho
              rcases List.mem_cons.1 ho with rfl | ho
              · refine ⟨⟨hi, he.2, rfl⟩, ?_⟩
                show 1 + (if hasExt hd then 1 else 0) + b.1.length ≤ rest.length + 1
                omega
              · exact ht' o ho
            · exact ht'

/-- The OBU the parsed one stands for; the forbidden bit is lost. -/
def toS (o : Obu) : SObu :=
  ⟨obuType o.header, if hasExt o.header then some o.ext else none, o.header.val % 2 == 1, o.payload⟩

/-- The same sizes and flags. -/
def Same (a b : Obu) : Prop :=
  hasExt a.header = hasExt b.header ∧ obuType a.header = obuType b.header ∧ a.payload.length = b.payload.length ∧ a.size = b.size

theorem toS_same (o : Obu) (h : Formed o) : Same o (toObu (toS o) (hasSize o.header)) ∧ Kept (toS o) ∧ (toS o).ty < 16 := by
  obtain ⟨h1, h2, h3⟩ := h
  have hty : (toS o).ty < 16 := by show o.header.val / 8 % 16 < 16; omega
  have hv := header_val (toS o) hty (hasSize o.header)
  have hk : Kept (toS o) := by
    unfold included at h1
    exact of_decide_eq_true h1
  have hisx : (toS o).ext.isSome = hasExt o.header := by
    show (if hasExt o.header then some o.ext else none).isSome = _
    cases hasExt o.header <;> rfl
  refine ⟨⟨?_, ?_, rfl, ?_⟩, hk, hty⟩
  · show _ = hasExt ((toS o).header (hasSize o.header))
    rw [header_ext (toS o) hty, hisx]
  · show o.header.val / 8 % 16 = ((toS o).header (hasSize o.header)).val / 8 % 16
    rw [hv, show (toS o).ty = o.header.val / 8 % 16 from rfl]
    have : ∀ a b c d : Nat, b ≤ 4 → c ≤ 2 → d ≤ 1 → a < 16 → (a * 8 + b + c + d) / 8 % 16 = a := by omega
    symm
    refine this _ _ _ _ ?_ ?_ ?_ (by omega) <;> split <;> omega
  · rw [h3]
    show _ = 1 + (if (toS o).ext.isSome then 1 else 0) + o.payload.length
    rw [hisx]

/-- Two runs that panic in the same cases. -/
def Both {α : Type} (R : α → α → Prop) : Res PErr α → Res PErr α → Prop
  | .ok a, .ok b => R a b
  | .err _, .err _ => True
  | .panic, .panic => True
  | _, _ => False

theorem Both.bind {α β : Type} {R : α → α → Prop} {S : β → β → Prop} {x y : Res PErr α} {f g : α → Res PErr β}
    (h : Both R x y) (hf : ∀ a b, R a b → Both S (f a) (g b)) : Both S (x >>= f) (y >>= g) := by
  cases x <;> cases y <;> first | exact h.elim | exact hf _ _ h | exact trivial

theorem Both.noPanic {α : Type} {R : α → α → Prop} {x y : Res PErr α} (h : Both R x y) (hy : y.NoPanic) : x.NoPanic := by
  cases x <;> cases y <;> first | exact h.elim | exact hy.elim | exact trivial

theorem Both.refl {α : Type} (x : Res PErr α) : Both (fun a b => a = b) x x := by
  cases x <;> first | rfl | exact trivial

def SameW (a b : W) : Prop := a.cap = b.cap ∧ a.bytes.length = b.bytes.length

theorem put_both {a b : W} (h : SameW a b) {xs ys : List Byte} (hl : xs.length = ys.length) : Both SameW (a.put xs) (b.put ys) := by
  unfold W.put
  rw [h.1, h.2, hl]
  by_cases hc : b.bytes.length + ys.length ≤ b.cap
  · rw [if_pos hc, if_pos hc]
    exact ⟨rfl, by show (a.bytes ++ xs).length = (b.bytes ++ ys).length; rw [List.length_append, List.length_append, h.2, hl]⟩
  · rw [if_neg hc, if_neg hc]
    exact trivial

theorem idx_both {as bs : List Obu} (h : List.Forall₂ Same as bs) (i : Nat) : Both Same (Res.idx as i) (Res.idx bs i) := by
  induction h generalizing i with
  | nil => exact trivial
  | cons hab _ ih =>
    cases i with
    | zero => exact hab
    | succ n =>
      have := ih n
      unfold Res.idx at this ⊢
      simpa using this

theorem writeLast_both {a b : Obu} (h : Same a b) (num off sz : Nat) {v w : W} (hw : SameW v w) :
    Both SameW (writeLast a num off sz v) (writeLast b num off sz w) := by
  obtain ⟨h1, -, h3, -⟩ := h
  unfold writeLast
  refine Both.bind (R := SameW) ?_ (fun v w hw => ?_)
  · unfold lastLeb
    split
    · exact put_both hw rfl
    · exact hw
  refine Both.bind (R := fun x y => SameW x.1 y.1 ∧ x.2 = y.2) ?_ (fun x y hxy => ?_)
  · unfold lastHdr
    split
    · exact Both.bind (put_both hw rfl) (fun a b hab => ⟨hab, rfl⟩)
    · exact ⟨hw, rfl⟩
  refine Both.bind (R := fun x y => SameW x.1 y.1 ∧ x.2 = y.2) ?_ (fun x y hxy => ?_)
  · unfold lastExt
    rw [h1, hxy.2]
    split
    · exact Both.bind (put_both hxy.1 rfl) (fun a b hab => ⟨hab, rfl⟩)
    · exact hxy
  refine Both.bind (R := fun x y => x.length = y.length) ?_ (fun u v huv => put_both hxy.1 huv)
  have hh : hdrLen a = hdrLen b := by unfold hdrLen; rw [h1]
  rw [hh, hxy.2]
  unfold Res.slice
  rw [h3]
  split
  · show List.length _ = List.length _
    simp [h3]
  · exact trivial

theorem writeGo_both {as bs : List Obu} (h : List.Forall₂ Same as bs) (first : Nat) : ∀ (n k off : Nat) (v w : W), SameW v w →
    Both (fun x y => SameW x.1 y.1 ∧ x.2 = y.2) (writeGo as first n k off v) (writeGo bs first n k off w) := by
  intro n
  induction n with
  | zero => intro k off v w hw; exact ⟨hw, rfl⟩
  | succ n ih =>
    intro k off v w hw
    unfold writeGo
    refine Both.bind (idx_both h _) (fun a b hab => ?_)
    obtain ⟨h1, -, h3, h4⟩ := hab
    have hh : hdrLen a = hdrLen b := by unfold hdrLen; rw [h1]
    rw [h4, hh, h3]
    refine Both.bind (Both.refl _) (fun x y hxy => ?_)
    rw [hxy]
    refine Both.bind (put_both hw rfl) (fun v w hw => ?_)
    refine Both.bind (R := SameW) ?_ (fun v w hw => ?_)
    · unfold midHdr
      split
      · exact put_both hw rfl
      · exact hw
    refine Both.bind (R := SameW) ?_ (fun v w hw => ?_)
    · unfold midExt
      rw [h1]
      split
      · exact put_both hw rfl
      · exact hw
    refine Both.bind (Both.refl _) (fun x y hxy => ?_)
    refine Both.bind (put_both hw (by simp [h3])) (fun v w hw => ih _ _ _ _ hw)

theorem writePk_both {as bs : List Obu} (h : List.Forall₂ Same as bs) (p : Pk) (f : Bool) :
    Both (fun x y => x.length = y.length) (writePk as p f) (writePk bs p f) := by
  unfold writePk
  refine Both.bind (R := fun _ _ => True) ?_ (fun x y _ => ?_)
  · unfold aggHeader
    refine Both.bind (Both.refl _) (fun x y hxy => ?_)
    rw [hxy]
    exact Both.bind (idx_both h _) (fun _ _ _ => Both.bind (idx_both h _) (fun _ _ _ => trivial))
  refine Both.bind (put_both ⟨rfl, rfl⟩ rfl) (fun v w hw => ?_)
  refine Both.bind (Both.refl _) (fun x y hxy => ?_)
  rw [hxy]
  refine Both.bind (writeGo_both h _ _ _ _ _ _ hw) (fun x y hxy => ?_)
  refine Both.bind (idx_both h _) (fun a b hab => ?_)
  rw [hxy.2]
  refine Both.bind (writeLast_both hab _ _ _ hxy.1) (fun v w hw => ?_)
  show List.length (_ ++ _) = List.length (_ ++ _)
  simp only [List.length_append, List.length_replicate, hw.1, hw.2]

theorem writeAll_both {as bs : List Obu} (h : List.Forall₂ Same as bs) : ∀ (ps : List Pk) (f : Bool),
    Both (fun x y => x.map List.length = y.map List.length) (writeAll as ps f) (writeAll bs ps f) := by
  intro ps
  induction ps with
  | nil => intro f; exact rfl
  | cons p ps ih =>
    intro f
    unfold writeAll
    refine Both.bind (writePk_both h p f) (fun x y hxy => Both.bind (ih false) (fun xs ys hs => ?_))
    show (x :: xs).map List.length = (y :: ys).map List.length
    rw [List.map_cons, List.map_cons, hxy, hs]

/-- C24, AV1 sender: whatever bytes are given as a frame, with any MTU (both below 2^62), the packetizer does
not panic, and what it makes fits the MTU. -/
theorem C24_av1_packetizer (mtu : Nat) (frame : List Byte) (h1 : mtu < 2 ^ 62) (h2 : frame.length < 2 ^ 62) :
    (packetize mtu frame).NoPanic ∧ ∀ pkts, packetize mtu frame = .ok pkts → FitsMtu mtu pkts := by
  unfold packetize
  by_cases hc : frame = [] ∨ mtu ≤ 1
  · rw [if_pos hc]
    exact ⟨trivial, fun p hp => by cases hp; simp [FitsMtu]⟩
  rw [if_neg hc]
  cases hp : parseObus frame with
  | err e => exact ⟨trivial, fun p hp => by cases hp⟩
  | panic => have := parseObus_noPanic frame; rw [hp] at this; exact this.elim
  | ok obus =>
    rw [Res.bind_def, Res.bind_ok]
    by_cases hne : obus = []
    · rw [if_pos hne]
      exact ⟨trivial, fun p hp => by cases hp; simp [FitsMtu]⟩
    rw [if_neg hne]
    have hf := parseObusGo_formed _ _ _ hp
    -- the OBUs the parser may have seen
    have hsame : List.Forall₂ Same obus (parsed (obus.map (fun o => (toS o, hasSize o.header)))) := by
      have : ∀ l : List Obu, (∀ o ∈ l, Formed o) → List.Forall₂ Same l (parsed (l.map (fun o => (toS o, hasSize o.header)))) := by
        intro l
        induction l with
        | nil => intro _; exact List.Forall₂.nil
        | cons o l ih =>
          intro h
          exact List.Forall₂.cons (toS_same o (h o (by simp))).1 (ih (fun x hx => h x (List.mem_cons_of_mem _ hx)))
      exact this obus (fun o ho => (hf o ho).1)
    have hok : ∀ x ∈ obus.map (fun o => (toS o, hasSize o.header)), Ok x.1 := by
      intro x hx
      obtain ⟨o, ho, rfl⟩ := List.mem_map.1 hx
      obtain ⟨hfo, hsz⟩ := hf o ho
      obtain ⟨-, hk, ht⟩ := toS_same o hfo
      refine ⟨ht, hk, ?_⟩
      have : (unsized (toS o)).length = o.size := by
        rw [hfo.2.2]
        unfold unsized toS
        dsimp only
        cases hasExt o.header <;> simp <;> omega
      show (unsized (toS o)).length < _
      omega
    have hsizes : obus.map (·.size) = (parsed (obus.map (fun o => (toS o, hasSize o.header)))).map (·.size) := by
      have : ∀ (l m : List Obu), List.Forall₂ Same l m → l.map (·.size) = m.map (·.size) := by
        intro l m h
        induction h with
        | nil => rfl
        | cons hab _ ih => rw [List.map_cons, List.map_cons, ih, hab.2.2.2]
      exact this _ _ hsame
    obtain ⟨s, e1, hch⟩ := emit_run _ hok (by simpa using hne) mtu (by omega) h1
    rw [hsizes, e1, Res.bind_def, Res.bind_ok]
    have hos : ∀ a ∈ (obus.map (fun o => (toS o, hasSize o.header))).map (·.1), Ok a := by
      intro a ha
      obtain ⟨x, hx, rfl⟩ := List.mem_map.1 ha
      exact hok x hx
    obtain ⟨pkts, g1, g2, -⟩ := run_chain _ hok (mtu - 1) _ _ 0 true hch (fun _ => rfl) hos
    have hb := writeAll_both hsame (s.packets ++ [s.cur]) true
    rw [g1] at hb
    refine ⟨hb.noPanic trivial, fun p hp => ?_⟩
    rw [hp] at hb
    have hb : p.map List.length = pkts.map List.length := hb
    intro q hq
    have : q.length ∈ pkts.map List.length := by rw [← hb]; exact List.mem_map_of_mem hq
    obtain ⟨r, hr, e⟩ := List.mem_map.1 this
    have := g2 r hr
    omega

/-! ### What a user may not expect -/
theorem step_grow (d : D) (hd : d.buffer ≠ []) (out : List Byte) (e : Option Bool) :
    depacketize d [u8 208, u8 1] out e = .ok (⟨d.buffer ++ [u8 1], d.length + 1⟩, out, some (e.getD false)) := by
  unfold depacketize
  have h1 : (u8 208).val / 128 = 1 := by decide
  have h2 : (u8 208).val / 64 % 2 = 1 := by decide
  have h3 : (u8 208).val / 8 % 2 = 0 := by decide
  have h4 : (u8 208).val / 16 % 4 = 1 := by decide
  simp only [h1, h2, h3, h4, decide_true]
  cases e <;> simp [depackGo, elemLen, hd, Res.bind_def, Res.bind_ok, Res.upto]

/-- A packet whose last element "goes on" is kept without a limit: after one such packet and `n` that go on,
the receiver, whatever its state was, holds `n + 1` bytes, though nothing was ever delivered. -/
theorem C24_av1_grows_violation (d : D) (out : List Byte) (e : Option Bool) (n : Nat) :
    ∃ k, runDepack depacketize ([u8 80, u8 1] :: List.replicate n [u8 208, u8 1]) d out e
      = .ok (⟨List.replicate (n + 1) (u8 1), n + 1⟩, out, k) := by
  have hgo : ∀ (n m : Nat) (e : Option Bool), ∃ k, runDepack depacketize (List.replicate n [u8 208, u8 1]) ⟨List.replicate (m + 1) (u8 1), m + 1⟩ out e
      = .ok (⟨List.replicate (n + m + 1) (u8 1), n + m + 1⟩, out, k) := by
    intro n
    induction n with
    | zero => intro m e; exact ⟨e, by simp [runDepack]⟩
    | succ n ih =>
      intro m e
      obtain ⟨k, hk⟩ := ih (m + 1) (some (e.getD false))
      refine ⟨k, ?_⟩
      rw [List.replicate_succ]
      show (depacketize _ [u8 208, u8 1] out e >>= fun r => runDepack depacketize _ r.1 r.2.1 r.2.2) = _
      rw [step_grow _ (by simp), Res.bind_def, Res.bind_ok]
      dsimp only
      rw [show List.replicate (m + 1) (u8 1) ++ [u8 1] = List.replicate (m + 1 + 1) (u8 1) from (List.replicate_succ' ..).symm, hk,
        show n + (m + 1) + 1 = n + 1 + m + 1 by omega]
  have h0 : depacketize d [u8 80, u8 1] out e = .ok (⟨[u8 1], 1⟩, out, some (e.getD false)) := by
    unfold depacketize
    have h1 : (u8 80).val / 128 = 0 := by decide
    have h2 : (u8 80).val / 64 % 2 = 1 := by decide
    have h3 : (u8 80).val / 8 % 2 = 0 := by decide
    have h4 : (u8 80).val / 16 % 4 = 1 := by decide
    simp only [h1, h2, h3, h4, decide_true]
    cases e <;> simp [depackGo, elemLen, Res.bind_def, Res.bind_ok, Res.upto]
  obtain ⟨k, hk⟩ := hgo n 0 (some (e.getD false))
  refine ⟨k, ?_⟩
  show (depacketize d [u8 80, u8 1] out e >>= fun r => runDepack depacketize _ r.1 r.2.1 r.2.2) = _
  rw [h0, Res.bind_def, Res.bind_ok]
  exact hk

/-- An MTU of one byte or none drops every frame without an error. -/
theorem C23_av1_small_mtu_violation (frame : List Byte) : packetize 1 frame = .ok [] ∧ packetize 0 frame = .ok [] := by
  constructor <;> (unfold packetize; rw [if_pos (by omega)])

/-- OBUs of reserved types do not arrive, though the RTP payload format lets them travel. -/
theorem C23_av1_reserved_violation (p : List Byte) (hp : p.length < 100) :
    ∃ pkts, packetize 1200 (lowOverhead [(⟨9, none, false, p⟩, [u8 p.length])] none) = .ok pkts ∧ pkts = [] := by
  obtain ⟨pkts, g1, -, g3, -⟩ := C23_av1 1200 (by omega) (by omega) [(⟨9, none, false, p⟩, [u8 p.length])] none (by
    intro x hx
    rcases List.mem_cons.1 hx with rfl | hx
    · refine ⟨(by show 9 < 16; omega), ⟨[], u8 p.length, rfl, by simp, by simp, ?_, ?_⟩, ?_⟩
      · rw [u8_val]; omega
      · show (u8 p.length).val % 128 + 128 * 0 = p.length
        rw [u8_val]; omega
      · show p.length + 2 < _; omega
    · cases hx) (fun o ho => by cases ho)
  exact ⟨pkts, g1, g3.2 rfl⟩


end Str0m.Av1
