import Verif.Proofs.Interop
/-
  C64: what other implementations send. The descriptors are those of Spec/Interop.lean, that is every
  descriptor RFC 7741 and RFC 9628 allow (VP9: with at most three spatial layers).
-/
namespace Str0m.Packet
open Str0m.Interop

/-- C64, VP8: a packet with any legal descriptor and a payload of at least one byte, in any state of the
receiver: exactly the payload is appended; the flags, the picture id, TL0PICIDX and the layer index
reported are those sent (ids are extended to 64 bits, the low bits are those sent), and the key
frame flag says whether the start of partition 0 was a key frame (or one was seen before). -/
theorem C64_vp8 (d : Vp8D) (h8 : Vp8Desc) (hl : h8.Legal) (c : Byte) (body : List Byte) (out : List Byte) (extra : Option Vp8Extra)
    (hd1 : ∀ n, d.extendedPid = some n → n < 2 ^ 64) (hd2 : ∀ n, d.extendedTl0 = some n → n < 2 ^ 64) :
    ∃ d' e, vp8Depacketize d (h8.bytes ++ c :: body) out extra = .ok (d', out ++ c :: body, some e) ∧
      (∀ n, d'.extendedPid = some n → n < 2 ^ 64) ∧ (∀ n, d'.extendedTl0 = some n → n < 2 ^ 64) ∧
      e.discardable = h8.nonRef ∧
      (e.pictureId = none ↔ h8.pid = none) ∧ (∀ q, h8.pid = some q → ∃ n, e.pictureId = some n ∧ n % 2 ^ q.width = q.val) ∧
      (e.tl0PictureId = none ↔ h8.tl0 = none) ∧ (∀ q, h8.tl0 = some q → ∃ n, e.tl0PictureId = some n ∧ n % 2 ^ 8 = q) ∧
      (∀ t y, h8.tid = some (t, y) → e.layerIndex = t ∧ e.sync = y) ∧
      (e.isKeyframe = true ↔ (∃ x, extra = some x ∧ x.isKeyframe = true) ∨ (h8.start = true ∧ h8.partition = 0 ∧ c.val % 2 = 0)) :=
  vp8_read d h8 hl c body out extra hd1 hd2

/-- A descriptor with all fields. -/
def exVp8 : Vp8Desc := ⟨true, true, 0, some (.long 4711), some 9, some (2, true), some 3⟩

theorem C64_vp8_example : exVp8.Legal ∧ exVp8.bytes.length = 6 := by
  refine ⟨⟨by decide, ?_, ?_, ?_, ?_⟩, rfl⟩
  · intro p hp; cases hp; show 4711 < 2 ^ 15; decide
  · intro n hn; cases hn; decide
  · intro t y h; cases h; decide
  · intro k h; cases h; decide

theorem vp9Flags (a b c d e f g h : Bool) :
    bit (u8 (fl a 128 + fl b 64 + fl c 32 + fl d 16 + fl e 8 + fl f 4 + fl g 2 + fl h 1)) 7 = fl a 1 ∧
    bit (u8 (fl a 128 + fl b 64 + fl c 32 + fl d 16 + fl e 8 + fl f 4 + fl g 2 + fl h 1)) 6 = fl b 1 ∧
    bit (u8 (fl a 128 + fl b 64 + fl c 32 + fl d 16 + fl e 8 + fl f 4 + fl g 2 + fl h 1)) 5 = fl c 1 ∧
    bit (u8 (fl a 128 + fl b 64 + fl c 32 + fl d 16 + fl e 8 + fl f 4 + fl g 2 + fl h 1)) 4 = fl d 1 ∧
    bit (u8 (fl a 128 + fl b 64 + fl c 32 + fl d 16 + fl e 8 + fl f 4 + fl g 2 + fl h 1)) 3 = fl e 1 ∧
    bit (u8 (fl a 128 + fl b 64 + fl c 32 + fl d 16 + fl e 8 + fl f 4 + fl g 2 + fl h 1)) 1 = fl g 1 := by
  revert a b c d e f g h
  decide +kernel

theorem fl_one (b : Bool) : (fl b 1 == 1) = b := by cases b <;> rfl

theorem fl_one_iff (b : Bool) : fl b 1 = 1 ↔ b = true := by cases b <;> simp [fl]

/-- C64, VP9: a packet with any legal descriptor of at most three spatial layers, in any state of the
receiver, where the bytes of its spatial layer so far, if any, end where the packet is appended:
exactly the payload is appended; picture id, layer ids, TL0PICIDX and resolutions reported are
those sent, the end of the layer is recorded, and the key frame flag says whether the packet starts
a base layer frame that is not predicted (or one was seen before). -/
theorem C64_vp9 (d : Vp9D) (hd : d.Wf) (h : Vp9Desc) (hl : h.Legal 3) (body out : List Byte) (extra : Option Vp9Extra)
    (hx : ∀ x, extra = some x → x.layersScheme.length = 3 ∧ ∀ l, h.layer = some l →
      x.layersScheme[l.sid]? = some none ∨ x.layersScheme[l.sid]? = some (some out.length)) :
    ∃ d' e, vp9Depacketize d (h.bytes ++ body) out extra = .ok (d', out ++ body, some e) ∧ d'.Wf ∧ e.layersScheme.length = 3 ∧
      (∀ p, h.pid = some p → e.pid = p.val) ∧
      (∀ l, h.layer = some l → e.tid = some l.tid ∧ (h.flexible = false → e.tl0PictureId = some l.tl0) ∧
        e.layersScheme[l.sid]? = some (some (out.length + body.length)) ∧
        ∀ j, j ≠ l.sid → j < 3 → e.layersScheme[j]? = (extra.map (fun x => x.layersScheme[j]?)).getD (some none)) ∧
      (h.layer = none → ∀ x, extra = some x → e.layersScheme = x.layersScheme) ∧
      (∀ s l, h.ss = some s → s.sizes = some l → ∀ (j : Nat) (x : Nat × Nat), l[j]? = some x →
        e.widths[j]? = some (some x.1) ∧ e.heights[j]? = some (some x.2)) ∧
      (e.isKeyframe = true ↔ (∃ x, extra = some x ∧ x.isKeyframe = true) ∨
        (h.inter = false ∧ h.start = true ∧ ∀ l, h.layer = some l → l.sid = 0)) := by
  obtain ⟨f7, f6, f5, f4, f3, f1⟩ := vp9Flags h.pid.isSome h.inter h.layer.isSome h.flexible h.start h.stop h.ss.isSome h.nonRef
  rw [show u8 (fl h.pid.isSome 128 + fl h.inter 64 + fl h.layer.isSome 32 + fl h.flexible 16 + fl h.start 8 + fl h.stop 4 + fl h.ss.isSome 2 + fl h.nonRef 1) = h.flags from rfl] at *
  have hbytes : h.bytes ++ body = h.flags :: (h.pidBytes ++ h.layerBytes ++ refBytes h.refs ++ h.ssBytes ++ body) := by
    unfold Vp9Desc.bytes; simp
  have hblen : h.bytes.length = 1 + h.pidBytes.length + h.layerBytes.length + (refBytes h.refs).length + h.ssBytes.length := by
    unfold Vp9Desc.bytes; simp; omega
  generalize hpk : h.bytes ++ body = pk at *
  have h0 : getU8 pk 0 .shortPacket = .ok h.flags := by rw [hbytes]; rfl
  -- picture id
  have s1 : ∃ pid, (if bit h.flags 7 = 1 then vp9PictureId d pk 1 else pure (d, 1) : Res PErr (Vp9D × Nat))
      = .ok ({ d with pictureId := pid }, 1 + h.pidBytes.length) ∧ ∀ p, h.pid = some p → pid = p.val := by
    rw [f7]
    unfold Vp9Desc.pidBytes at hbytes ⊢
    cases hq : h.pid with
    | none => exact ⟨d.pictureId, rfl, by simp⟩
    | some p =>
      rw [hq] at hbytes
      rw [if_pos (by rfl), hbytes]
      have := vp9PictureId_read d [h.flags] (h.layerBytes ++ refBytes h.refs ++ h.ssBytes ++ body) p (hl.pid p hq) (pos := 1) rfl
      rw [show h.flags :: (p.bytes ++ h.layerBytes ++ refBytes h.refs ++ h.ssBytes ++ body) = [h.flags] ++ p.bytes ++ (h.layerBytes ++ refBytes h.refs ++ h.ssBytes ++ body) by simp, this]
      exact ⟨p.val, rfl, fun q hq => by cases hq; rfl⟩
  obtain ⟨pid, s1, s1p⟩ := s1
  have s2 : ∃ t s tl, (if bit h.flags 5 = 1 then vp9LayerInfo { d with pictureId := pid } pk (bit h.flags 4 == 1) (1 + h.pidBytes.length)
        else pure ({ d with pictureId := pid }, 1 + h.pidBytes.length) : Res PErr (Vp9D × Nat))
      = .ok ({ d with pictureId := pid, tid := t, sid := s, tl0picidx := tl }, 1 + h.pidBytes.length + h.layerBytes.length) ∧
      ∀ l, h.layer = some l → t = l.tid ∧ s = l.sid ∧ (h.flexible = false → tl = l.tl0) := by
    rw [f5, f4, fl_one]
    unfold Vp9Desc.layerBytes at hbytes ⊢
    cases hq : h.layer with
    | none => exact ⟨d.tid, d.sid, d.tl0picidx, rfl, by simp⟩
    | some l =>
      rw [hq] at hbytes
      dsimp only at hbytes ⊢
      rw [if_pos (by rfl), hbytes]
      obtain ⟨tl, k1, k2⟩ := vp9LayerInfo_read { d with pictureId := pid } (h.flags :: h.pidBytes) (refBytes h.refs ++ h.ssBytes ++ body) l h.flexible (hl.layer l hq)
        (pos := 1 + h.pidBytes.length) (by simp; omega)
      rw [show h.flags :: (h.pidBytes ++ u8 (l.tid * 32 + fl l.up 16 + l.sid * 2 + fl l.dep 1) :: (if h.flexible = true then [] else [u8 l.tl0]) ++ refBytes h.refs ++ h.ssBytes ++ body)
        = h.flags :: h.pidBytes ++ u8 (l.tid * 32 + fl l.up 16 + l.sid * 2 + fl l.dep 1) :: (if h.flexible = true then [] else [u8 l.tl0]) ++ (refBytes h.refs ++ h.ssBytes ++ body) by simp, k1]
      exact ⟨l.tid, l.sid, tl, rfl, fun m hm => by cases hm; exact ⟨rfl, rfl, k2⟩⟩
  obtain ⟨t, s, tl, s2, s2p⟩ := s2
  have s3 : (if bit h.flags 4 = 1 ∧ bit h.flags 6 = 1 then vp9Refs pk 3 (1 + h.pidBytes.length + h.layerBytes.length)
        else pure (1 + h.pidBytes.length + h.layerBytes.length) : Res PErr Nat)
      = .ok (1 + h.pidBytes.length + h.layerBytes.length + (refBytes h.refs).length) := by
    simp only [f4, f6, fl_one_iff]
    have hr := hl.refs
    by_cases hc : h.flexible = true ∧ h.inter = true
    · rw [if_pos hc] at hr ⊢
      have := vp9Refs_read h.refs (h.flags :: (h.pidBytes ++ h.layerBytes)) (h.ssBytes ++ body) 3 (1 + h.pidBytes.length + h.layerBytes.length)
        (by intro h0; rw [h0] at hr; simp at hr) hr.2 hl.diff (by simp; omega)
      rw [hbytes, show h.flags :: (h.pidBytes ++ h.layerBytes ++ refBytes h.refs ++ h.ssBytes ++ body)
        = h.flags :: (h.pidBytes ++ h.layerBytes) ++ refBytes h.refs ++ (h.ssBytes ++ body) by simp, this]
    · rw [if_neg hc] at hr ⊢
      rw [hr]; rfl
  generalize hd2 : ({ d with pictureId := pid, tid := t, sid := s, tl0picidx := tl } : Vp9D) = d2 at *
  have hd2w : d2.Wf := by rw [← hd2]; exact hd
  have s4 : ∃ w hh pt pd, (if bit h.flags 1 = 1 then vp9Ss d2 pk (1 + h.pidBytes.length + h.layerBytes.length + (refBytes h.refs).length)
        else pure (d2, 1 + h.pidBytes.length + h.layerBytes.length + (refBytes h.refs).length) : Res PErr (Vp9D × Nat))
      = .ok ({ d2 with widths := w, heights := hh, pgtid := pt, pgpdiff := pd }, h.bytes.length) ∧ w.length = 3 ∧ hh.length = 3 ∧
      ∀ s l, h.ss = some s → s.sizes = some l → ∀ (j : Nat) (x : Nat × Nat), l[j]? = some x → w[j]? = some (some x.1) ∧ hh[j]? = some (some x.2) := by
    simp only [f1, fl_one_iff]
    unfold Vp9Desc.ssBytes at hbytes hblen
    cases hq : h.ss with
    | none =>
      rw [hq] at hblen
      refine ⟨d2.widths, d2.heights, d2.pgtid, d2.pgpdiff, ?_, hd2w.1, hd2w.2, by simp⟩
      rw [hblen]; rfl
    | some ss =>
      rw [hq] at hbytes hblen
      dsimp only at hbytes hblen
      obtain ⟨w, hh, pt, pd, k1, k2, k3, k4, -⟩ := vp9Ss_read ss (hl.ss ss hq) (h.flags :: (h.pidBytes ++ h.layerBytes ++ refBytes h.refs)) body d2 hd2w
        (pos := 1 + h.pidBytes.length + h.layerBytes.length + (refBytes h.refs).length) (by simp; omega)
      refine ⟨w, hh, pt, pd, ?_, k2, k3, ?_⟩
      · rw [if_pos (by rfl), hbytes, show h.flags :: (h.pidBytes ++ h.layerBytes ++ refBytes h.refs ++ ss.bytes ++ body)
          = h.flags :: (h.pidBytes ++ h.layerBytes ++ refBytes h.refs) ++ ss.bytes ++ body by simp, k1, hblen]
      · intro s' l hs' hl' j x hx
        cases hs'
        exact k4 l hl' j x hx
  obtain ⟨w, hh, pt, pd, s4, s4a, s4b, s4c⟩ := s4
  unfold vp9Depacketize
  rw [h0, Res.bind_def, Res.bind_ok, s1, Res.bind_def, Res.bind_ok]
  dsimp only
  rw [s2, Res.bind_def, Res.bind_ok]
  dsimp only
  rw [s3, Res.bind_def, Res.bind_ok, s4, Res.bind_def, Res.bind_ok, f5, f4, f6, f3, fl_one, fl_one, fl_one, fl_one]
  dsimp only
  have hpl : pk.length = h.bytes.length + body.length := by rw [← hpk, List.length_append]
  have hfrom : (Res.from_ pk h.bytes.length : Res PErr (List Byte)) = .ok body := by
    rw [Res.from_of_le (by omega), ← hpk, List.drop_left]
  have hdrop : (Res.from_ pk h.bytes.length : Res PErr (List Byte)) = .ok body := hfrom
  have hbase : (vp9Base extra).layersScheme.length = 3 := by
    cases extra with
    | none => rfl
    | some x => exact (hx x rfl).1
  have hwas : (vp9Base extra).isKeyframe = true ↔ ∃ x, extra = some x ∧ x.isKeyframe = true := by
    cases extra with
    | none => simp [vp9Base, Vp9Extra.init]
    | some x => simp [vp9Base]
  unfold vp9UpdateExtra
  dsimp only
  cases hq : h.layer with
  | none =>
    simp only [Option.isSome_none, Bool.false_eq_true, if_false]
    rw [show ∀ e : Vp9Extra, (pure e : Res PErr Vp9Extra) = .ok e from fun _ => rfl, Res.bind_def, Res.bind_ok, hfrom, Res.bind_def, Res.bind_ok]
    refine ⟨_, _, rfl, ⟨s4a, s4b⟩, hbase, ?_, by simp, ?_, ?_, ?_⟩
    · intro p hp
      rw [← s1p p hp, ← hd2]
    · intro _ x hx'
      subst hx'
      rfl
    · exact s4c
    · dsimp only
      rw [Bool.or_eq_true, hwas]
      simp
  | some l =>
    obtain ⟨q1, q2, q3⟩ := s2p l hq
    have hsid : d2.sid = l.sid := by rw [← hd2]; exact q2
    have hsl : l.sid < 3 := (hl.layer l hq).2.1
    simp only [Option.isSome_some, if_true]
    rw [if_neg (by omega), hsid, Res.idx_of_lt (by omega), Res.bind_def, Res.bind_def, Res.bind_ok]
    have hold : ¬ ((vp9Base extra).layersScheme[l.sid]'(by omega) ≠ none ∧ (vp9Base extra).layersScheme[l.sid]'(by omega) ≠ some out.length) := by
      rintro ⟨n1, n2⟩
      cases extra with
      | none =>
        have : ∀ j (hj : j < 3), (Vp9Extra.init.layersScheme)[j]'hj = none := by decide
        exact n1 (this l.sid hsl)
      | some x =>
        rcases (hx x rfl).2 l hq with hh | hh
        · rw [List.getElem?_eq_getElem (by have := (hx x rfl).1; omega)] at hh
          exact n1 (Option.some.inj hh)
        · rw [List.getElem?_eq_getElem (by have := (hx x rfl).1; omega)] at hh
          exact n2 (Option.some.inj hh)
    rw [if_neg hold]
    rw [show ∀ e : Vp9Extra, (pure e : Res PErr Vp9Extra) = .ok e from fun _ => rfl, Res.bind_ok, hfrom, Res.bind_def, Res.bind_ok]
    refine ⟨_, _, rfl, ⟨s4a, s4b⟩, by simpa using hbase, ?_, ?_, by simp, s4c, ?_⟩
    · intro p hp
      rw [← s1p p hp, ← hd2]
    · intro m hm
      cases hm
      dsimp only
      refine ⟨by rw [← hd2, q1], ?_, ?_, ?_⟩
      · intro hf
        rw [hf, ← hd2, ← q3 hf]; rfl
      · rw [List.getElem?_set_self (by omega)]
        congr 2
        omega
      · intro j hj hj3
        rw [List.getElem?_set_ne (fun h => hj h.symm)]
        cases extra with
        | none =>
          have : ∀ j (hj : j < 3), (Vp9Extra.init.layersScheme)[j]? = some none := by decide
          exact this j hj3
        | some x => rfl
    · dsimp only
      rw [Bool.or_eq_true, hwas]
      refine or_congr_right ?_
      cases h.inter <;> cases h.start <;> simp

/-- The spatial layers of the packets of a picture come in order (RFC 9628 3: "spatial layer frames in
increasing order"), or the stream has no layer indices. -/
def InOrder (ps : List (Vp9Desc × List Byte)) : Prop :=
  (∀ x ∈ ps, x.1.layer = none) ∨
  ((∀ x ∈ ps, x.1.layer ≠ none) ∧ List.Pairwise (fun a b => ∀ l m, a.1.layer = some l → b.1.layer = some m → l.sid ≤ m.sid) ps)

/-- C64, VP9 pictures: all packets of a picture, with any legal descriptors: exactly the payloads are
appended, in order; key frame iff some packet starts a base layer frame that is not predicted. -/
theorem C64_vp9_picture (d : Vp9D) (hd : d.Wf) (ps : List (Vp9Desc × List Byte)) (hl : ∀ x ∈ ps, x.1.Legal 3) (ho : InOrder ps) (hne : ps ≠ []) :
    ∃ d' e, runDepack vp9Depacketize (ps.map (fun x => x.1.bytes ++ x.2)) d [] none = .ok (d', (ps.map (·.2)).flatten, some e) ∧ d'.Wf ∧
      (e.isKeyframe = true ↔ ∃ x ∈ ps, x.1.inter = false ∧ x.1.start = true ∧ ∀ l, x.1.layer = some l → l.sid = 0) := by
  have key : ∀ (ps : List (Vp9Desc × List Byte)) (d : Vp9D) (out : List Byte) (extra : Option Vp9Extra), d.Wf → (∀ x ∈ ps, x.1.Legal 3) → InOrder ps →
      (∀ x, extra = some x → x.layersScheme.length = 3 ∧ ∀ y ∈ ps, ∀ l, y.1.layer = some l →
        ∀ j, l.sid ≤ j → j < 3 → x.layersScheme[j]? = some none ∨ (j = l.sid ∧ x.layersScheme[j]? = some (some out.length))) →
      ∃ d' e, runDepack vp9Depacketize (ps.map (fun x => x.1.bytes ++ x.2)) d out extra = .ok (d', out ++ (ps.map (·.2)).flatten, e) ∧ d'.Wf ∧
        (ps ≠ [] → ∃ x, e = some x) ∧
        ((∃ x, e = some x ∧ x.isKeyframe = true) ↔ (∃ x, extra = some x ∧ x.isKeyframe = true) ∨
          ∃ x ∈ ps, x.1.inter = false ∧ x.1.start = true ∧ ∀ l, x.1.layer = some l → l.sid = 0) := by
    intro ps
    induction ps with
    | nil => intro d out extra hd _ _ _; exact ⟨d, extra, by simp [runDepack], hd, by simp, by simp⟩
    | cons p ps ih =>
      obtain ⟨h, body⟩ := p
      intro d out extra hd hl ho hx
      obtain ⟨d1, e1, r1, r2, r3, r4, r5, r6, r7, r8⟩ := C64_vp9 d hd h (hl (h, body) (by simp)) body out extra (by
        intro x hxe
        obtain ⟨a, b⟩ := hx x hxe
        refine ⟨a, fun l hle => ?_⟩
        rcases b (h, body) (by simp) l hle l.sid (le_refl _) ((hl (h, body) (by simp)).layer l hle).2.1 with c | ⟨-, c⟩
        · exact Or.inl c
        · exact Or.inr c)
      have ho' : InOrder ps := by
        rcases ho with ho | ⟨ho1, ho2⟩
        · exact Or.inl (fun x hx => ho x (List.mem_cons_of_mem _ hx))
        · exact Or.inr ⟨fun x hx => ho1 x (List.mem_cons_of_mem _ hx), (List.pairwise_cons.1 ho2).2⟩
      obtain ⟨d2, e2, q1, q2, q3, q4⟩ := ih d1 (out ++ body) (some e1) r2 (fun x hx => hl x (List.mem_cons_of_mem _ hx)) ho' (by
        intro x hxe
        cases hxe
        refine ⟨r3, fun y hy m hm j hj hj3 => ?_⟩
        rcases ho with ho | ⟨ho1, ho2⟩
        · have := ho y (List.mem_cons_of_mem _ hy)
          rw [this] at hm; cases hm
        · have hln := ho1 (h, body) (by simp)
          obtain ⟨l, hle⟩ := Option.ne_none_iff_exists'.1 hln
          have hlm : l.sid ≤ m.sid := (List.pairwise_cons.1 ho2).1 y hy l m hle hm
          obtain ⟨-, -, t3, t4⟩ := r5 l hle
          by_cases hjl : j = l.sid
          · subst hjl
            right
            exact ⟨by omega, by rw [t3, List.length_append]⟩
          · left
            rw [t4 j hjl hj3]
            cases extra with
            | none => rfl
            | some x =>
              obtain ⟨-, b⟩ := hx x rfl
              show x.layersScheme[j]? = some none
              rcases b (h, body) (by simp) l hle j (by omega) hj3 with c | ⟨c, -⟩
              · exact c
              · exact absurd c hjl)
      refine ⟨d2, e2, ?_, q2, ?_, ?_⟩
      · rw [List.map_cons]
        show (vp9Depacketize d (h.bytes ++ body) out extra >>= fun r => runDepack vp9Depacketize _ r.1 r.2.1 r.2.2) = _
        rw [r1, Res.bind_def, Res.bind_ok]
        dsimp only
        rw [q1, List.map_cons, List.flatten_cons, List.append_assoc]
      · intro _
        cases ps with
        | nil =>
          have := congrArg (fun x : Vp9D × List Byte × Option Vp9Extra => x.2.2) (Res.ok.inj q1)
          exact ⟨e1, this.symm⟩
        | cons a b => exact q3 (by simp)
      · rw [q4]
        have : (∃ x, some e1 = some x ∧ x.isKeyframe = true) ↔ e1.isKeyframe = true := by simp
        rw [this, r8]
        simp only [List.exists_mem_cons_iff, or_assoc]
  obtain ⟨d', e, k1, k2, k3, k4⟩ := key ps d [] none hd hl ho (by simp)
  obtain ⟨x, rfl⟩ := k3 hne
  refine ⟨d', x, by simpa using k1, k2, ?_⟩
  simpa using k4

/-- A key picture with two spatial layers, flexible mode, and a structure with resolutions and a group. -/
def exVp9 : List (Vp9Desc × List Byte) :=
  [(⟨some (.long 300), false, some ⟨1, false, 0, false, 0⟩, true, true, true,
      some ⟨2, some [(320, 180), (640, 360)], some [⟨0, false, [u8 1]⟩, ⟨1, true, [u8 1, u8 2]⟩]⟩, false, []⟩, [u8 1, u8 2]),
   (⟨some (.long 300), true, some ⟨1, false, 1, true, 0⟩, true, true, true, none, true, [1, 2, 3]⟩, [u8 3])]

theorem C64_vp9_example : (∀ x ∈ exVp9, x.1.Legal 3) ∧ InOrder exVp9 ∧ exVp9 ≠ [] := by
  refine ⟨?_, ?_, by simp [exVp9]⟩
  · intro x hx
    simp only [exVp9, List.mem_cons, List.not_mem_nil, or_false] at hx
    rcases hx with rfl | rfl
    · refine ⟨?_, ?_, by decide, by decide, ?_⟩
      · intro p hp; cases hp; show 300 < 2 ^ 15; decide
      · intro l hl; cases hl; decide
      · intro s hs; cases hs
        refine ⟨by decide, ?_, ?_⟩
        · intro l hl; cases hl; exact ⟨rfl, by decide⟩
        · intro g hg; cases hg
          refine ⟨by decide, ?_⟩
          intro p hp
          simp only [List.mem_cons, List.not_mem_nil, or_false] at hp
          rcases hp with rfl | rfl <;> decide
    · refine ⟨?_, ?_, by decide, by decide, by simp⟩
      · intro p hp; cases hp; show 300 < 2 ^ 15; decide
      · intro l hl; cases hl; decide
  · refine Or.inr ⟨by simp [exVp9], ?_⟩
    simp only [exVp9, List.pairwise_cons, List.mem_cons, List.not_mem_nil, or_false, false_imp_iff, implies_true, List.Pairwise.nil, and_true]
    rintro _ rfl l m hl hm
    cases hl; cases hm
    decide

/-- RFC 9628 allows eight spatial layers; a packet of the fourth or a later one is refused. -/
theorem C64_vp9_layers_violation (d : Vp9D) (l : Vp9Layer) (hs : 3 ≤ l.sid) (hs2 : l.sid < 8) (ht : l.tid < 8) (body out : List Byte) (extra : Option Vp9Extra) :
    vp9Depacketize d ((⟨none, false, some l, true, true, true, none, false, []⟩ : Vp9Desc).bytes ++ body) out extra = .err .tooManySpatialLayers := by
  obtain ⟨tid, up, sid, dep, tl0⟩ := l
  have hs : 3 ≤ sid := hs
  have hs2 : sid < 8 := hs2
  have ht : tid < 8 := ht
  have hv : (u8 (tid * 32 + fl up 16 + sid * 2 + fl dep 1)).val / 2 % 8 = sid := by
    have a1 : fl up 16 = 0 ∨ fl up 16 = 16 := by unfold fl; split <;> simp
    have a2 : fl dep 1 ≤ 1 := by unfold fl; split <;> omega
    rw [u8_lt (by omega)]
    omega
  show vp9Depacketize d (u8 60 :: u8 (tid * 32 + fl up 16 + sid * 2 + fl dep 1) :: body) out extra = _
  unfold vp9Depacketize vp9LayerInfo
  generalize u8 (tid * 32 + fl up 16 + sid * 2 + fl dep 1) = b at *
  have g0 : getU8 (u8 60 :: b :: body) 0 .shortPacket = .ok (u8 60) := rfl
  have g1 : getU8 (u8 60 :: b :: body) 1 .shortPacket = .ok b := rfl
  have b7 : ¬ bit (u8 60) 7 = 1 := by decide
  have b5 : bit (u8 60) 5 = 1 := by decide
  have hp : ∀ x : Vp9D × Nat, (pure x : Res PErr _) = .ok x := fun _ => rfl
  simp only [g0, Res.bind_def, Res.bind_ok, if_neg b7, hp, if_pos b5, g1, hv, if_pos hs]
  rfl

end Str0m.Packet
