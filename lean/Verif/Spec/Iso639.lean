/-! # Specification: ISO 639 language codes

The rows of ISO 639 for the languages the library covers: two-letter code (ISO 639-1), terminological
three-letter code (639-2/T) and bibliographic three-letter code (639-2/B).  Written from the standard, in
alphabetical order, independently of the order and layout of the crate's list. -/

namespace Spec.Iso639

/-- Languages whose two three-letter codes coincide. -/
def same : List (String × String) := [
  ("ab", "abk"), ("af", "afr"), ("ak", "aka"), ("am", "amh"), ("ar", "ara"), ("as", "asm"), ("ay", "aym"), ("az", "aze"),
  ("ba", "bak"), ("be", "bel"), ("bg", "bul"), ("bm", "bam"), ("bn", "ben"), ("bs", "bos"), ("ca", "cat"), ("co", "cos"),
  ("cv", "chv"), ("da", "dan"), ("dv", "div"), ("dz", "dzo"), ("ee", "ewe"), ("en", "eng"), ("es", "spa"), ("et", "est"),
  ("ff", "ful"), ("fi", "fin"), ("fj", "fij"), ("fy", "fry"), ("ga", "gle"), ("gd", "gla"), ("gl", "glg"), ("gn", "grn"),
  ("gu", "guj"), ("ha", "hau"), ("he", "heb"), ("hi", "hin"), ("hr", "hrv"), ("ht", "hat"), ("hu", "hun"), ("id", "ind"),
  ("ig", "ibo"), ("it", "ita"), ("ja", "jpn"), ("kg", "kon"), ("ki", "kik"), ("kk", "kaz"), ("kl", "kal"), ("km", "khm"),
  ("kn", "kan"), ("ko", "kor"), ("kr", "kau"), ("ks", "kas"), ("ku", "kur"), ("ky", "kir"), ("lb", "ltz"), ("lg", "lug"),
  ("li", "lim"), ("ln", "lin"), ("lo", "lao"), ("lt", "lit"), ("lv", "lav"), ("mg", "mlg"), ("mh", "mah"), ("ml", "mal"),
  ("mn", "mon"), ("mr", "mar"), ("mt", "mlt"), ("na", "nau"), ("nd", "nde"), ("ne", "nep"), ("no", "nor"), ("nr", "nbl"),
  ("ny", "nya"), ("oc", "oci"), ("om", "orm"), ("or", "ori"), ("os", "oss"), ("pa", "pan"), ("pl", "pol"), ("ps", "pus"),
  ("pt", "por"), ("qu", "que"), ("rn", "run"), ("ru", "rus"), ("rw", "kin"), ("sa", "san"), ("sc", "srd"), ("sd", "snd"),
  ("sg", "sag"), ("si", "sin"), ("sl", "slv"), ("sm", "smo"), ("sn", "sna"), ("so", "som"), ("sr", "srp"), ("ss", "ssw"),
  ("st", "sot"), ("su", "sun"), ("sv", "swe"), ("sw", "swa"), ("ta", "tam"), ("te", "tel"), ("tg", "tgk"), ("th", "tha"),
  ("ti", "tir"), ("tk", "tuk"), ("tl", "tgl"), ("tn", "tsn"), ("to", "ton"), ("tr", "tur"), ("ts", "tso"), ("tt", "tat"),
  ("tw", "twi"), ("ty", "tah"), ("ug", "uig"), ("uk", "ukr"), ("ur", "urd"), ("uz", "uzb"), ("ve", "ven"), ("vi", "vie"),
  ("wa", "wln"), ("wo", "wol"), ("xh", "xho"), ("yi", "yid"), ("yo", "yor"), ("za", "zha"), ("zu", "zul")]

/-- Languages whose bibliographic code differs from the terminological one. -/
def differ : List (String × String × String) := [
  ("bo", "bod", "tib"), ("cs", "ces", "cze"), ("cy", "cym", "wel"), ("de", "deu", "ger"),
  ("el", "ell", "gre"), ("eu", "eus", "baq"), ("fa", "fas", "per"), ("fr", "fra", "fre"),
  ("hy", "hye", "arm"), ("is", "isl", "ice"), ("ka", "kat", "geo"), ("mk", "mkd", "mac"),
  ("ms", "msa", "may"), ("my", "mya", "bur"), ("nl", "nld", "dut"), ("ro", "ron", "rum"),
  ("sk", "slk", "slo"), ("sq", "sqi", "alb"), ("zh", "zho", "chi")]

/-- All rows `(two, terminological, bibliographic)`. -/
def rows : List (String × String × String) := same.map (fun r => (r.1, r.2, r.2)) ++ differ

end Spec.Iso639
