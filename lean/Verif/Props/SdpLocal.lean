import Verif.Proofs.SdpLocal
import Verif.Props.Sdp

/-!
C76: the lines of an SDP are read one by one. C77: what is checked of a parsed SDP.
-/

namespace Str0m.Sdp
open Str0m.Text Str0m.StrId Str0m.Profiles Str0m.Pts
open Str0m.Negotiate (Dir Setup)

/-- The attribute lines of these texts -/
def lines (vs : List Str) : Str := (vs.map (fun v => c!"a=" ++ v ++ c!"\r\n")).flatten

/-- The media attribute lines that are read on their own: any text at all, but
an fmtp or a rid must not end with white space or `;`, a rid must not list payload types, an ssrc needs a `:` after its number. -/
structure Sound (v : Str) : Prop where
  val : Val v
  fmtp : c!"fmtp:" <+: v → ∀ c ∈ v.getLast?, isWs c = false ∧ c ≠ ';'
  rid : c!"rid:" <+: v → (∀ c ∈ v.getLast?, isWs c = false ∧ c ≠ ';') ∧ ¬ c!" pt=" <:+: v
  ssrc : c!"ssrc:" <+: v → ':' ∈ v.drop 5

/-- What the parser demands of an m-line with its attributes -/
structure MediaLine.Whole (m : MediaLine Ip) : Prop where
  mid : m.attrs.countP MediaAttr.isMid = 1
  setup : m.attrs.countP MediaAttr.isSetup ≤ 1
  dir : m.proto = .srtp → m.attrs.countP MediaAttr.isDir = 1
  media : m.proto = .srtp → m.pts ≠ []
  maps : ∀ p ∈ m.pts, m.attrs.countP (MediaAttr.maps p) = 1 ∨ (m.attrs.countP (MediaAttr.maps p) = 0 ∧ (p = 0 ∨ p = 8 ∨ p = 9 ∨ p = 13))

/-- The first line of an m-section and its bandwidth -/
structure MediaLine.HeadOk (m : MediaLine Ip) : Prop where
  typ : m.typ.Ok
  pts : ∀ p ∈ m.pts, p ≤ 255
  app : m.typ = .application → m.pts = []
  bw : ∀ b ∈ m.bw, BwOk b

theorem lines_items (vs : List Str) (f : Str → α) : lines vs = ((vs.map (fun v => (c!"a=" ++ v ++ nl, f v))).map (·.1)).flatten := by
  simp only [List.map_map]; rfl

theorem reads_unique {p : P α} {i r r' : Str} {v w : α} (h1 : Reads p i v r) (h2 : Reads p i w r') : v = w := by
  obtain ⟨c, h1⟩ := h1
  obtain ⟨c', h2⟩ := h2
  rw [h1] at h2
  simp only [PR.ok.injEq] at h2
  exact h2.1

theorem flatten_len (l : List α) (g : α → Str) (h : ∀ x, g x ≠ []) : l.length ≤ ((l.map g).flatten).length := by
  induction l with
  | nil => simp
  | cons x l ih =>
    have := List.length_pos_iff.2 (h x)
    simp only [List.map_cons, List.flatten_cons, List.length_append, List.length_cons]
    omega

theorem sess_choice (env : Env Ip) : ∃ f : Str → SessAttr Ip, ∀ v, Val v → ∀ r, Reads (sessAttrP env) (c!"a=" ++ v ++ nl ++ r) (f v) r := by
  classical
  refine ⟨fun v => if h : Val v then (sess_line env v h).choose else .iceLite, fun v hv r => ?_⟩
  simp only [dif_pos hv, List.append_assoc]
  exact (sess_line env v hv).choose_spec r

theorem media_sound (env : Env Ip) (henv : EnvOk env) (v : Str) (h : Sound v) :
    ∃ a, ∀ r, Reads (mediaAttrP env) ('a' :: '=' :: (v ++ (nl ++ r))) a r := by
  have ho : OneLine v := h.val.2
  refine media_line env henv v h.val ?_ ?_ ?_
  · by_cases hk : c!"fmtp:" <+: v
    · exact fmtp_line env ho (h.fmtp hk)
    · refine Or.inr (fun r => fmtp_errs env (fun val => keyed_errs (k := c!"fmtp") hk (by decide)))
  · by_cases hk : c!"rid:" <+: v
    · exact rid_line henv ho (h.rid hk).1 (h.rid hk).2
    · exact Or.inr (fun r => (keyed_errs (k := c!"rid") hk (by decide)).attempt)
  · refine ssrc_line ho ?_
    intro w hw
    have := h.ssrc ⟨w, by rw [hw]; rfl⟩
    rw [hw] at this
    exact this

theorem media_choice (env : Env Ip) (henv : EnvOk env) :
    ∃ g : Str → MediaAttr Ip, ∀ v, Sound v → ∀ r, Reads (mediaAttrP env) (c!"a=" ++ v ++ nl ++ r) (g v) r := by
  classical
  refine ⟨fun v => if h : Sound v then (media_sound env henv v h).choose else .rtcpMux, fun v hv r => ?_⟩
  simp only [dif_pos hv, List.append_assoc]
  exact (media_sound env henv v hv).choose_spec r

/-- **C76.** The attributes of an SDP are read line by line: there are functions that give the meaning of a line, and every text of
attribute lines — known, unknown or malformed, any number of them in any order — is read as the meanings of its lines. A line never
changes how another one is read. A line of no known kind is kept as it is. -/
theorem C76_lines (env : Env Ip) (henv : EnvOk env) : ∃ (f : Str → SessAttr Ip) (g : Str → MediaAttr Ip),
    (∀ v, UnusedOk sessKeys sessFlags v → f v = .unused v) ∧ (∀ v, UnusedOk mediaKeys mediaFlags v → Sound v ∧ g v = .unused v) ∧
    ∀ (s : Session Ip) (sv : List Str) (ms : List (MediaLine Ip × List Str)), s.id < 2 ^ 64 → (∀ b ∈ s.bw, BwOk b) → (∀ v ∈ sv, Val v) →
      (∀ x ∈ ms, x.1.HeadOk ∧ (∀ v ∈ x.2, Sound v) ∧ MediaLine.Whole { x.1 with attrs := x.2.map g }) →
      Desc.parse env (Session.show env { s with attrs := [] } ++ lines sv ++
          (ms.map (fun x => MediaLine.show env { x.1 with attrs := [] } ++ lines x.2)).flatten) =
        some { session := { s with attrs := sv.map f }, media := ms.map (fun x => { x.1 with attrs := x.2.map g }) } := by
  obtain ⟨f, hf⟩ := sess_choice env
  obtain ⟨g, hg⟩ := media_choice env henv
  refine ⟨f, g, fun v hv => reads_unique (hf v hv.1 []) (by simpa [nl] using sess_unused env v hv.1 hv []), fun v hv => ?_, ?_⟩
  · have hs : Sound v := ⟨hv.1, fun h => absurd h (hv.2.1 c!"fmtp" (by decide)), fun h => absurd h (hv.2.1 c!"rid" (by decide)),
      fun h => absurd h (hv.2.1 c!"ssrc" (by decide))⟩
    exact ⟨hs, reads_unique (hg v hs []) (by simpa [nl] using media_unused env v hv [])⟩
  intro s sv ms hid hbw hsv hms
  -- one m-section
  have hone : ∀ x ∈ ms, ∀ r, EndOrM r →
      Reads (mediaP env) (MediaLine.show env { x.1 with attrs := [] } ++ lines x.2 ++ r) { x.1 with attrs := x.2.map g } r := by
    intro x hx r hr
    obtain ⟨h1, h2, h3⟩ := hms x hx
    unfold MediaLine.show
    simp only [List.append_assoc, List.map_nil, List.flatten_nil, List.nil_append]
    rw [lines_items x.2 g]
    let items := x.2.map (fun v => (c!"a=" ++ v ++ nl, g v))
    have e2 : x.2.map g = items.map (·.2) := by simp [items]
    have ha : ∀ y ∈ items, ∃ t, y.1 = 'a' :: t := by
      intro y hy
      obtain ⟨v, _, rfl⟩ := List.mem_map.1 hy
      exact ⟨_, rfl⟩
    have hattr : Reads (many (mediaAttrP env)) ((items.map (·.1)).flatten ++ r) (items.map (·.2)) r :=
      many_free items r (mediaAttr_ends env hr) (by
        intro y hy r'
        obtain ⟨v, hv, rfl⟩ := List.mem_map.1 hy
        exact hg v (h2 v hv) r') (by
        intro y hy
        obtain ⟨t, ht⟩ := ha y hy
        simp [ht])
    have hb := bw_reads x.1.bw h1.bw (items_stops items ha (f := fun c => c == 'b') (by decide) (hr.stops (by decide)))
    have hm := mLine_reads x.1 h1.typ h1.pts h1.app (c!"c=IN IP4 0.0.0.0" ++ (nl ++ (showBw x.1.bw ++ ((items.map (·.1)).flatten ++ r))))
    have hc : Reads (typedLine 'c' anyValue) (c!"c=IN IP4 0.0.0.0" ++ (nl ++ (showBw x.1.bw ++ ((items.map (·.1)).flatten ++ r)))) c!"IN IP4 0.0.0.0"
        (showBw x.1.bw ++ ((items.map (·.1)).flatten ++ r)) := typedLine_reads (anyValue_reads (s := c!"IN IP4 0.0.0.0") ⟨by decide, by decide⟩ _)
    refine Reads.andThen (hm.then (hc.optSome.then (hb.then (hattr.then (Reads.ret _ _))))) ?_
    have hd : ((if x.1.disabled then c!"0" else c!"9") == c!"0") = x.1.disabled := by cases x.1.disabled <;> rfl
    dsimp only
    rw [hd, ← e2, if_pos]
    exact MediaLine.consistent_of _ h3.mid h3.setup h3.dir h3.media h3.maps
  -- all of them
  have hend : ∀ l : List (MediaLine Ip × List Str), EndOrM ((l.map (fun x => MediaLine.show env { x.1 with attrs := [] } ++ lines x.2)).flatten) := by
    intro l
    cases l with
    | nil => exact Or.inl rfl
    | cons x l => exact Or.inr ⟨_, rfl⟩
  have hall : ∀ fuel, ms.length ≤ fuel →
      Reads (manyGo (mediaP env) fuel) ((ms.map (fun x => MediaLine.show env { x.1 with attrs := [] } ++ lines x.2)).flatten)
        (ms.map (fun x => { x.1 with attrs := x.2.map g })) [] := by
    clear hms
    induction ms with
    | nil => exact fun fuel _ => manyGo_nil (mediaP_end env) fuel
    | cons x ms ih =>
      intro fuel hfu
      cases fuel with
      | zero => simp at hfu
      | succ fuel =>
        have h1 := hone x (by simp) _ (hend ms)
        exact manyGo_cons h1 (ih (fun y hy => hone y (by simp [hy])) fuel (by simpa using hfu))
  have hmany : Reads (many (mediaP env)) ((ms.map (fun x => MediaLine.show env { x.1 with attrs := [] } ++ lines x.2)).flatten)
        (ms.map (fun x => { x.1 with attrs := x.2.map g })) [] := by
    refine hall _ ?_
    have := flatten_len ms (fun x => MediaLine.show env { x.1 with attrs := [] } ++ lines x.2) (fun x => by simp [MediaLine.show])
    omega
  -- the session
  have hsess : ∀ r, EndOrM r → Reads (sessionP env) (Session.show env { s with attrs := [] } ++ lines sv ++ r) { s with attrs := sv.map f } r := by
    intro r hr
    unfold Session.show
    simp only [List.append_assoc, List.map_nil, List.flatten_nil, List.nil_append]
    rw [lines_items sv f]
    have hv : ∀ r', Reads (typedLine 'v' (token '0')) (c!"v=0" ++ (nl ++ r')) '0' r' := fun r' => typedLine_reads (Reads.token '0' _)
    have hs : ∀ r', Reads (typedLine 's' anyValue) (c!"s=-" ++ (nl ++ r')) c!"-" r' := fun r' => typedLine_reads (anyValue_reads (s := c!"-") ⟨by decide, by decide⟩ _)
    have ht : ∀ r', Reads (typedLine 't' (string c!"0 0")) (c!"t=0 0" ++ (nl ++ r')) () r' := fun r' => typedLine_reads (Reads.string c!"0 0" _)
    let items := sv.map (fun v => (c!"a=" ++ v ++ nl, f v))
    have e2 : sv.map f = items.map (·.2) := by simp [items]
    have ha : ∀ y ∈ items, ∃ t, y.1 = 'a' :: t := by
      intro y hy
      obtain ⟨v, _, rfl⟩ := List.mem_map.1 hy
      exact ⟨_, rfl⟩
    have hattr : Reads (many (sessAttrP env)) ((items.map (·.1)).flatten ++ r) (items.map (·.2)) r :=
      many_free items r (sessAttr_ends env hr) (by
        intro y hy r'
        obtain ⟨v, hv, rfl⟩ := List.mem_map.1 hy
        exact hf v (hsv v hv) r') (by
        intro y hy
        obtain ⟨t, ht⟩ := ha y hy
        simp [ht])
    rw [e2]
    have hR : Reads (many (typedLine 'r' anyValue)) ((items.map (·.1)).flatten ++ r) [] ((items.map (·.1)).flatten ++ r) :=
      manyGo_nil (typedLine_fails (items_stops items ha (by decide) (hr.stops (by decide)))) _
    have hI : ∀ r', Reads (many ignoredLine) (showBw s.bw ++ (c!"t=0 0" ++ (nl ++ r'))) [] (showBw s.bw ++ (c!"t=0 0" ++ (nl ++ r'))) :=
      fun r' => manyGo_nil (ignored_fails (showBw_stops _ (by decide) (Stops.cons (by decide)))) _
    refine (hv _).then ((orig_reads env henv s.id hid _).then ((hs _).then ((hI _).then ((bw_reads s.bw hbw (Stops.cons (by decide))).then ((ht _).then (hR.then (hattr.then ?_)))))))
    exact Reads.ret _ _
  obtain ⟨c, hc⟩ := ((hsess _ (hend ms)).then (hmany.then (Reads.ret (α := Desc Ip) _ _)) : Reads (sdpP env) _ _ _)
  unfold Desc.parse sdpP
  rw [hc]

/-- Lines that are nothing the parser knows, malformed ones of known kinds, and good ones are all sound. -/
example : ∀ v ∈ [c!"x-google-flag:conference", c!"fingerprint:sha-256 ZZ", c!"extmap:5", c!"rtpmap:200 x", c!"fmtp:111 minptime=10;useinbandfec=1", c!"ssrc:1 cname:y",
    c!"rid:hi send max-width=1280", c!"candidate:nonsense"], Sound v := by
  intro v hv
  refine ⟨⟨?_, ?_⟩, ?_, ?_, ?_⟩ <;> revert v <;> decide +kernel

/-! ### The lines that do change how others are read -/

/-- C76 (violation). An fmtp that ends with `;` takes the next line into itself: here the direction is gone. -/
theorem C76_fmtp_swallows :
    mediaAttrP env1 c!"a=fmtp:96 apt=97;\r\na=sendrecv\r\n" = .ok (.fmtp 96 [.apt 97, .unknown]) [] true ∧
    mediaAttrP env1 c!"a=fmtp:96 apt=97\r\na=sendrecv\r\n" = .ok (.fmtp 96 [.apt 97]) c!"a=sendrecv\r\n" true := by
  constructor <;> decide +kernel

/-- C76 (violation). An `a=ssrc` line without a `:` after the number takes everything up to the next `:` into the name of its attribute. -/
theorem C76_ssrc_swallows :
    mediaAttrP env1 c!"a=ssrc:1 foo\r\na=sendrecv\r\na=mid:x\r\n" = .ok (.ssrc 1 c!"foo\r\na=sendrecv\r\na=mid" c!"x") [] true := by
  decide +kernel

/-- C76 (violation). A rid with payload types takes the following flag as one of its restrictions: here `a=rtcp-mux` is gone. -/
theorem C76_rid_swallows :
    mediaAttrP env1 c!"a=rid:hi send pt=99\r\na=rtcp-mux\r\n" = .ok (.rid c!"hi" true [99] [(c!"a", c!"rtcp-mux")]) [] true := by
  decide +kernel

/-- C76 (violation). A line inside an m-section that is not an attribute (`i=`, `k=`) ends the SDP without an error: the attributes
after it and all further m-sections are dropped. -/
theorem C76_rest_dropped :
    (Desc.parse env1 c!"v=0\r\no=- 1 2 IN IP4 0.0.0.0\r\ns=-\r\nt=0 0\r\nm=application 9 UDP/DTLS/SCTP webrtc-datachannel\r\na=mid:d\r\nk=clear:x\r\na=ice-ufrag:abcd\r\nm=application 9 UDP/DTLS/SCTP webrtc-datachannel\r\na=mid:e\r\n").map
      (fun s => s.media.map (·.attrs)) = some [[.mid c!"d"]] := by
  decide +kernel

/-! ### C77 -/

theorem manyGo_all {p : P α} {Q : α → Prop} (hp : ∀ i v r c, p i = .ok v r c → Q v) (fuel : Nat) : ∀ i vs r c, manyGo p fuel i = .ok vs r c → ∀ v ∈ vs, Q v := by
  induction fuel with
  | zero => intro i vs r c h; simp only [manyGo, PR.ok.injEq] at h; rw [← h.1]; simp
  | succ n ih =>
    intro i vs r c h
    unfold manyGo at h
    cases hi : p i with
    | err b =>
      rw [hi] at h
      cases b with
      | true => cases h
      | false => simp only [PR.ok.injEq] at h; rw [← h.1]; simp
    | ok v r' c' =>
      rw [hi] at h
      simp only at h
      cases hm : manyGo p n r' with
      | err b => rw [hm] at h; cases h
      | ok vs' r'' c'' =>
        rw [hm] at h
        simp only [PR.ok.injEq] at h
        rw [← h.1]
        intro x hx
        rcases List.mem_cons.1 hx with rfl | hx
        · exact hp _ _ _ _ hi
        · exact ih _ _ _ _ hm x hx

theorem parse_consistent {env : Env Ip} {text : Str} {s : Desc Ip} (h : Desc.parse env text = some s) : ∀ m ∈ s.media, m.consistent = true := by
  unfold Desc.parse sdpP thenP at h
  cases h1 : sessionP env text with
  | err c => rw [h1] at h; cases h
  | ok se r c =>
    rw [h1] at h
    simp only at h
    cases h2 : many (mediaP env) r with
    | err c => simp [thenP, h2] at h
    | ok ms r' c' =>
      simp only [thenP, h2, ret, Option.some.injEq] at h
      subst h
      refine manyGo_all (Q := fun m => m.consistent = true) ?_ _ _ _ _ _ h2
      intro i v r c hm
      unfold mediaP andThen at hm
      split at hm
      · cases hm
      · split at hm
        · rename_i hif
          beta_reduce at hif
          split at hif
          · rename_i hc
            simp only [Option.some.injEq] at hif
            simp only [PR.ok.injEq] at hm
            rw [← hm.1, ← hif]; exact hc
          · cases hif
        · cases hm

theorem whole_of_consistent {m : MediaLine Ip} (h : m.consistent = true) : m.Whole := by
  unfold MediaLine.consistent at h
  simp only [← List.countP_eq_length_filter] at h
  have h : ((m.attrs.countP MediaAttr.isMid == 1) && decide (m.attrs.countP MediaAttr.isSetup ≤ 1) && (m.proto != .srtp || m.attrs.countP MediaAttr.isDir == 1) &&
    (m.proto != .srtp || m.pts != []) && m.pts.all (fun p => (m.attrs.countP (MediaAttr.maps p) != 0 || isStaticPt p) &&
      decide (m.attrs.countP (MediaAttr.maps p) ≤ 1))) = true := h
  simp only [Bool.and_eq_true, decide_eq_true_eq, Bool.or_eq_true, bne_iff_ne, ne_eq, beq_iff_eq, List.all_eq_true] at h
  obtain ⟨⟨⟨⟨h1, h2⟩, h3⟩, h4⟩, h5⟩ := h
  refine ⟨h1, h2, fun hp => ?_, fun hp => ?_, fun p hp => ?_⟩
  · rcases h3 with h | h
    · exact absurd hp h
    · exact h
  · rcases h4 with h | h
    · exact absurd hp h
    · exact h
  · obtain ⟨ha, hb⟩ := h5 p hp
    rcases ha with h | h
    · exact Or.inl (by omega)
    · rcases Nat.eq_zero_or_pos (m.attrs.countP (MediaAttr.maps p)) with h0 | h0
      · exact Or.inr ⟨h0, (isStatic_iff p).1 h⟩
      · exact Or.inl (by omega)

/-- **C77.** Whatever the text: every m-section of an SDP that parses has exactly one mid, at most one setup and, when it carries media,
exactly one direction, some payload types and for each of them exactly one rtpmap (or none for a static one). -/
theorem C77_media_sections (env : Env Ip) (text : Str) (s : Desc Ip) (h : Desc.parse env text = some s) : ∀ m ∈ s.media, m.Whole :=
  fun m hm => whole_of_consistent (parse_consistent h m hm)

/-- C77. `assert_consistency` accepts a parsed SDP exactly when it has a group at all. (The mids of the group are not looked at: the
loop leaves at the first m-line that has nothing to complain about.) -/
theorem C77_group_present (env : Env Ip) (text : Str) (s : Desc Ip) (h : Desc.parse env text = some s)
    (hsmall : ∀ typ mids, .group typ mids ∈ s.session.attrs → mids.length + s.media.length < 2 ^ 64 - 1) :
    s.assertConsistent = true ↔ ∃ typ mids, .group typ mids ∈ s.session.attrs := by
  have hc := parse_consistent h
  unfold Desc.assertConsistent
  cases hf : s.session.attrs.find? (fun a => match a with | .group _ _ => true | _ => false) with
  | none =>
    simp only [Bool.false_eq_true, false_iff, not_exists]
    intro typ mids hm
    have := List.find?_eq_none.1 hf _ hm
    simp at this
  | some a =>
    have hm := List.mem_of_find?_eq_some hf
    have hp := List.find?_some hf
    cases a with
    | group typ mids =>
      have hs := hsmall typ mids hm
      have hl : groupLoop (s.media.zip mids) = true := by
        cases hz : s.media.zip mids with
        | nil => rfl
        | cons x l =>
          have : x.1 ∈ s.media := (List.of_mem_zip (show (x.1, x.2) ∈ s.media.zip mids by rw [hz]; simp)).1
          obtain ⟨m, g⟩ := x
          simp only [groupLoop]
          rw [if_pos (hc m this)]
      simp only
      rw [if_neg (by omega), hl]
      simp only [true_iff]
      exact ⟨typ, mids, hm⟩
    | _ => simp at hp

/-- C77 (violation). An SDP whose BUNDLE group names other media than its m-sections passes `assert_consistency`. -/
theorem C77_bundle_unchecked :
    (Desc.parse env1 c!"v=0\r\no=- 1 2 IN IP4 0.0.0.0\r\ns=-\r\nt=0 0\r\na=group:BUNDLE foo bar baz\r\nm=application 9 UDP/DTLS/SCTP webrtc-datachannel\r\na=mid:d\r\n").map
      (fun s => (s.assertConsistent, s.media.map (·.mid?))) = some (true, [some c!"d"]) := by
  decide +kernel

end Str0m.Sdp
