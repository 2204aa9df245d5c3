import Verif.Lemmas.JsonMain
import Verif.Model.VisMain

/-! The texts printed by `sat_visibility` as sequences of JSON tokens. -/

namespace SatSky.Json

open SatSky Spec Spec.Json Dates GetEl Opts Sky Prog

/-- Inside the object of the satellite, after a comma. -/
def gObj : Cfg := ⟨.key, [true, true]⟩

/-- Inside the object of the satellite, after its last member. -/
def gEnd : Cfg := ⟨.after, [true, true]⟩

theorem vacc_open : Acc Vis.vopenJson.tail ⟨.key0, [true]⟩ gKey :=
  acc_piece (a := .lit Vis.vopenJson.tail) trivial (by decide +kernel)

theorem numW (w p : Nat) (x : ℚ) : (Piece.num (Vis.fmtW w p x)).Ok := numText_fmtF w p x

theorem vacc_params {file : CString} {z : ℚ × ℚ × ℚ} {p : Vis.VParams} (hf : Plain file) (h0 : Plain p.date0) (h1 : Plain p.date1) :
    Acc (Vis.vparamsJson file z p) gKey gKey := by
  have := acc_pieces (g := gKey) (g' := gKey)
    [.lit b!"\"input_params\": {\"tle_file\": ", .str file, .lit b!", \"location\": {\"lat\":", .num (Vis.fmtW 8 4 p.lat), .lit b!", \"lon\":",
      .num (Vis.fmtW 9 4 p.lon), .lit b!", \"alt\":", .num (Vis.fmtW 8 1 p.ht), .lit b!"}, \"region\": {\"ra\":", .num (Vis.fmtW 9 4 0),
      .lit b!", \"dec\":", .num (Vis.fmtW 8 4 p.lat), .lit b!", \"radius\":", .num (Vis.fmtW 8 4 p.radius),
      .lit b!", \"lmst\":", .num (Vis.fmtW 8 4 0), .lit b!", \"az\":", .num (Vis.fmtW 9 4 z.1), .lit b!", \"alt\":", .num (Vis.fmtW 8 4 z.2.1),
      .lit b!", \"parang\":", .num (Vis.fmtW 8 3 z.2.2), .lit b!"}, \"mjd_range\": [", .num (Vis.fmtW 11 5 p.mjd0), .lit b!", ",
      .num (Vis.fmtW 11 5 p.mjd1), .lit b!"], \"date_utc_range\": [", .str p.date0, .lit b!", ", .str p.date1, .lit b!"], \"gmst\":",
      .num (Vis.fmtW 8 4 0), .lit b!", \"delta_time_s\": ", .num (intText p.dt),
      .lit b!", \"notes\": \"All coordinates and radius in degrees. GMST, LMST in hrs.\"}, "]
    (by
      simp only [List.forall_mem_cons]
      refine ⟨trivial, hf, trivial, numW _ _ _, trivial, numW _ _ _, trivial, numW _ _ _, trivial, numW _ _ _, trivial, numW _ _ _, trivial,
        numW _ _ _, trivial, numW _ _ _, trivial, numW _ _ _, trivial, numW _ _ _, trivial, numW _ _ _, trivial, numW _ _ _, trivial, numW _ _ _,
        trivial, h0, trivial, h1, trivial, numW _ _ _, trivial, intOk _, trivial, by simp⟩)
    (by simp only [List.map_cons, List.map_nil, Piece.erase]; decide +kernel)
  convert this using 1
  unfold Vis.vparamsJson
  simp only [List.flatMap_cons, List.flatMap_nil, Piece.text, List.append_assoc, List.append_nil]

/-- `add_sundata_json` anywhere in an object. -/
theorem vacc_sun {label : CString} (hl : Plain label) (u : Vis.SunNums) {g : Cfg} (hg : g = gKey ∨ g = gObj) :
    Acc (Vis.vsunJson label u) g g := by
  have := acc_pieces (g := g) (g' := g)
    [.str label, .lit b!": {\"ra\":", .num (Vis.fmtW 7 3 u.ra), .lit b!", \"dec\":", .num (Vis.fmtW 7 3 u.dec), .lit b!", \"az\":", .num (Vis.fmtW 8 3 u.az),
      .lit b!", \"alt\":", .num (Vis.fmtW 7 3 u.alt), .lit b!", \"lon\":", .num (Vis.fmtW 8 3 u.lon), .lit b!", \"parang\":", .num (Vis.fmtW 8 3 u.parang),
      .lit b!", \"separation_deg\":", .num (Vis.fmtW 7 3 u.sep), .lit b!"}, "]
    (by
      simp only [List.forall_mem_cons]
      refine ⟨hl, trivial, numW _ _ _, trivial, numW _ _ _, trivial, numW _ _ _, trivial, numW _ _ _, trivial, numW _ _ _, trivial, numW _ _ _,
        trivial, numW _ _ _, trivial, by simp⟩)
    (by simp only [List.map_cons, List.map_nil, Piece.erase]; rcases hg with rfl | rfl <;> decide +kernel)
  convert this using 1
  unfold Vis.vsunJson
  simp only [List.flatMap_cons, List.flatMap_nil, Piece.text, List.append_assoc, List.append_nil]

theorem vacc_geo {label : CString} (hl : Plain label) (u : Vis.GeoNums) : Acc (Vis.vgeoJson label u) gObj gObj := by
  have := acc_pieces (g := gObj) (g' := gObj)
    [.str label, .lit b!": {\"lat\":", .num (Vis.fmtW 7 3 u.lat), .lit b!", \"lon\":", .num (Vis.fmtW 7 3 u.lon), .lit b!", \"alt\":", .num (Vis.fmtW 9 2 u.alt),
      .lit b!", \"theta\":", .num (Vis.fmtW 8 3 u.theta), .lit b!"}, "]
    (by
      simp only [List.forall_mem_cons]
      refine ⟨hl, trivial, numW _ _ _, trivial, numW _ _ _, trivial, numW _ _ _, trivial, numW _ _ _, trivial, by simp⟩)
    (by simp only [List.map_cons, List.map_nil, Piece.erase]; decide +kernel)
  convert this using 1
  unfold Vis.vgeoJson
  simp only [List.flatMap_cons, List.flatMap_nil, Piece.text, List.append_assoc, List.append_nil]

theorem padLeft_int (w : Nat) (x : ℤ) : NumText (padLeft w (intText x)) := by
  refine ⟨_, _, rfl, ?_, number_int x⟩
  intro c hc
  exact Or.inl (List.eq_of_mem_replicate hc)

theorem vacc_sat {label date : CString} (hl : Plain label) (hd : Plain date) (mjd : ℚ) (s : Vis.SatNums) :
    Acc (Vis.vsatJson label date mjd s) gObj (if label = b!"sat_max" then gEnd else gObj) := by
  have h1 := acc_pieces (g := gObj) (g' := gEnd)
    [.str label, .lit b!": {\"Date\": ", .str date, .lit b!", \"MJD\": ", .num (Vis.fmtW 11 5 mjd), .lit b!", \"ra\": ", .num (Vis.fmtW 8 4 s.ra),
      .lit b!", \"dec\": ", .num (Vis.fmtW 8 4 s.dec), .lit b!", \"az\":", .num (Vis.fmtW 9 4 s.az), .lit b!", \"alt\":", .num (Vis.fmtW 8 4 s.alt),
      .lit b!", \"Distance\": ", .num (Vis.fmtW 9 2 s.dist), .lit b!", \"Separation\": ", .num (Vis.fmtW 6 4 s.sep), .lit b!", \"PA\": ",
      .num (padLeft 3 (intText s.pa)), .lit b!", \"Speed\": ", .num (Vis.fmtW 6 3 s.speed), .lit [125]]
    (by
      simp only [List.forall_mem_cons]
      refine ⟨hl, trivial, hd, trivial, numW _ _ _, trivial, numW _ _ _, trivial, numW _ _ _, trivial, numW _ _ _, trivial, numW _ _ _, trivial,
        numW _ _ _, trivial, numW _ _ _, trivial, padLeft_int _ _, trivial, numW _ _ _, trivial, by simp⟩)
    (by simp only [List.map_cons, List.map_nil, Piece.erase]; decide +kernel)
  have h2 : Acc (if label = b!"sat_max" then [] else b!", ") gEnd (if label = b!"sat_max" then gEnd else gObj) := by
    split
    · exact Acc.nil _
    · exact acc_piece (a := .lit b!", ") trivial (by decide +kernel)
  convert h1.append h2 using 1
  unfold Vis.vsatJson
  simp only [List.flatMap_cons, List.flatMap_nil, Piece.text, List.append_assoc, List.append_nil]

theorem vacc_head {nm ds : CString} (hn : Plain nm) (hd : Plain ds) (t : Tle) : Acc (Vis.satHead nm ds t) gKey gObj := by
  have := acc_pieces (g := gKey) (g' := gObj)
    [.lit Vis.vfieldsDesc, .lit b!" \"satellite\": {\"name\": ", .str nm, .lit b!", \"intl_desig\": ", .str ds, .lit b!", \"norad_n\": ",
      .num (intText t.norad), .lit b!", "]
    (by
      simp only [List.forall_mem_cons]
      refine ⟨trivial, trivial, hn, trivial, hd, trivial, intOk _, trivial, by simp⟩)
    (by simp only [List.map_cons, List.map_nil, Piece.erase]; decide +kernel)
  convert this using 1
  unfold Vis.satHead
  simp only [List.flatMap_cons, List.flatMap_nil, Piece.text, List.append_assoc, List.append_nil]

theorem vacc_duration (x : ℚ) : Acc (b!"}, \"sunlit_duration_minutes\": " ++ (fmtF 2 x ++ b!", ")) gEnd gKey := by
  have := acc_pieces (g := gEnd) (g' := gKey)
    [.lit b!"}, \"sunlit_duration_minutes\": ", .num (fmtF 2 x), .lit b!", "]
    (by
      simp only [List.forall_mem_cons]
      refine ⟨trivial, numTextOf (number_fmtF 2 x), trivial, by simp⟩)
    (by simp only [List.map_cons, List.map_nil, Piece.erase]; decide +kernel)
  convert this using 1
  simp only [List.flatMap_cons, List.flatMap_nil, Piece.text, List.append_nil]

/-- The text of `run_command`. -/
def vcommand (argv : List CString) (il : Bool) : CString :=
  b!"sat_visibility" ++ (if il then b!" @" ++ argv.getD 1 [] ++ (argv.drop 2).flatMap (fun a => 32 :: a)
    else (argv.drop 1).flatMap (fun a => 32 :: a))

theorem vacc_close {argv : List CString} {il : Bool} {st : ℤ} {msg : CString} {a : ℤ} (hc : Plain (vcommand argv il)) (hm : Plain msg) :
    Acc (Vis.vcloseJson argv il st msg a) gKey done := by
  have := acc_pieces (g := gKey) (g' := done)
    [.lit b!"\"run_command\": ", .str (vcommand argv il), .lit b!", \"status\": ", .num (intText st), .lit b!", \"errmsg\": ", .str msg,
      .lit b!", \"n_sats_found\": ", .num (intText a), .lit b!"}\n"]
    (by
      simp only [List.forall_mem_cons]
      exact ⟨trivial, hc, trivial, intOk _, trivial, hm, trivial, intOk _, trivial, by simp⟩)
    (by simp only [List.map_cons, List.map_nil, Piece.erase]; decide +kernel)
  convert this using 1
  unfold Vis.vcloseJson vcommand
  simp only [List.flatMap_cons, List.flatMap_nil, Piece.text, List.append_assoc, List.append_nil]

end SatSky.Json
