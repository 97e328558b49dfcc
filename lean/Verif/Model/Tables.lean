import Verif.Model.Text

/-
The tables of src/tables.cc, transcribed. Each lookup returns `none` where the C++ code would
access an element outside its table or throw.
-/

namespace Redsea

/-- A UTF-8 encoded literal of the source file. -/
def utf8Str (s : String) : Str := s.toList.flatMap fun c => utf8Encode c.toNat

/-- The 32 initialised elements of the 64-element array in `getPTYNameString`, src/tables.cc:28-42;
the others are empty strings. -/
def ptyNames : List String := [
  "No PTY", "News", "Current affairs", "Information",
  "Sport", "Education", "Drama", "Culture",
  "Science", "Varied", "Pop music", "Rock music",
  "Easy listening", "Light classical", "Serious classical", "Other music",
  "Weather", "Finance", "Children's programmes", "Social affairs",
  "Religion", "Phone-in", "Travel", "Leisure",
  "Jazz music", "Country music", "National music", "Oldies music",
  "Folk music", "Documentary", "Alarm test", "Alarm"]

/-- `getPTYNameString`, src/tables.cc:28-42. -/
def getPTYNameString (pty : Nat) : Option Str :=
  if pty < 64 then (utf8Str <$> (ptyNames ++ List.replicate 32 "")[pty]?) else some (utf8Str "Unknown")

/-- The 32 initialised elements of the array in `getPTYNameStringRBDS`, src/tables.cc:46-60. -/
def ptyNamesRBDS : List String := [
  "No PTY", "News", "Information", "Sports",
  "Talk", "Rock", "Classic rock", "Adult hits",
  "Soft rock", "Top 40", "Country", "Oldies",
  "Soft", "Nostalgia", "Jazz", "Classical",
  "Rhythm and blues", "Soft rhythm and blues", "Language", "Religious music",
  "Religious talk", "Personality", "Public", "College",
  "Spanish talk", "Spanish music", "Hip hop", "",
  "", "Weather", "Emergency test", "Emergency"]

/-- `getPTYNameStringRBDS`, src/tables.cc:46-60. -/
def getPTYNameStringRBDS (pty : Nat) : Option Str :=
  if pty < 64 then (utf8Str <$> (ptyNamesRBDS ++ List.replicate 32 "")[pty]?)
  else some (utf8Str "Unknown")

/-- `country_codes` in `getCountryString`, src/tables.cc:65-112. -/
def countryCodes : List (Nat × List String) := [
  (0xA0, ["us", "us", "us", "us", "us", "us", "us", "us", "us", "us", "us", "--", "us", "us", "--"]),
  (0xA1, ["--", "--", "--", "--", "--", "--", "--", "--", "--", "--", "ca", "ca", "ca", "ca", "gl"]),
  (0xA2, ["ai", "ag", "ec", "fk", "bb", "bz", "ky", "cr", "cu", "ar", "br", "bm", "an", "gp", "bs"]),
  (0xA3, ["bo", "co", "jm", "mq", "gf", "py", "ni", "--", "pa", "dm", "do", "cl", "gd", "tc", "gy"]),
  (0xA4, ["gt", "hn", "aw", "--", "ms", "tt", "pe", "sr", "uy", "kn", "lc", "sv", "ht", "ve", "--"]),
  (0xA5, ["--", "--", "--", "--", "--", "--", "--", "--", "--", "--", "mx", "vc", "mx", "mx", "mx"]),
  (0xA6, ["--", "--", "--", "--", "--", "--", "--", "--", "--", "--", "--", "--", "--", "--", "pm"]),
  (0xD0, ["cm", "cf", "dj", "mg", "ml", "ao", "gq", "ga", "gn", "za", "bf", "cg", "tg", "bj", "mw"]),
  (0xD1, ["na", "lr", "gh", "mr", "st", "cv", "sn", "gm", "bi", "--", "bw", "km", "tz", "et", "bg"]),
  (0xD2, ["sl", "zw", "mz", "ug", "sz", "ke", "so", "ne", "td", "gw", "zr", "ci", "tz", "zm", "--"]),
  (0xD3, ["--", "--", "eh", "--", "rw", "ls", "--", "sc", "--", "mu", "--", "sd", "--", "--", "--"]),
  (0xE0, ["de", "dz", "ad", "il", "it", "be", "ru", "ps", "al", "at", "hu", "mt", "de", "--", "eg"]),
  (0xE1, ["gr", "cy", "sm", "ch", "jo", "fi", "lu", "bg", "dk", "gi", "iq", "gb", "ly", "ro", "fr"]),
  (0xE2, ["ma", "cz", "pl", "va", "sk", "sy", "tn", "--", "li", "is", "mc", "lt", "rs", "es", "no"]),
  (0xE3, ["me", "ie", "tr", "mk", "--", "--", "--", "nl", "lv", "lb", "az", "hr", "kz", "se", "by"]),
  (0xE4, ["md", "ee", "kg", "--", "--", "ua", "ks", "pt", "si", "am", "--", "ge", "--", "--", "ba"]),
  (0xF0, ["au", "au", "au", "au", "au", "au", "au", "au", "sa", "af", "mm", "cn", "kp", "bh", "my"]),
  (0xF1, ["ki", "bt", "bd", "pk", "fj", "om", "nr", "ir", "nz", "sb", "bn", "lk", "tw", "kr", "hk"]),
  (0xF2, ["kw", "qa", "kh", "ws", "in", "mo", "vn", "ph", "jp", "sg", "mv", "id", "ae", "np", "vu"]),
  (0xF3, ["la", "th", "to", "--", "--", "--", "--", "--", "pg", "--", "ye", "--", "--", "fm", "mn"])]

/-- `getCountryString`, src/tables.cc:65-112; `none` where `at(cc - 1)` throws. -/
def getCountryString (cc ecc : Nat) : Option Str :=
  match countryCodes.lookup ecc with
  | some row => if cc > 0 then (utf8Str <$> row[cc - 1]?) else some (utf8Str "--")
  | none => some (utf8Str "--")

/-- `languages` in `getLanguageString`, src/tables.cc:116-154. -/
def languages : List String := [
  "Unknown", "Albanian", "Breton", "Catalan",
  "Croatian", "Welsh", "Czech", "Danish",
  "German", "English", "Spanish", "Esperanto",
  "Estonian", "Basque", "Faroese", "French",
  "Frisian", "Irish", "Gaelic", "Galician",
  "Icelandic", "Italian", "Lappish", "Latin",
  "Latvian", "Luxembourgian", "Lithuanian", "Hungarian",
  "Maltese", "Dutch", "Norwegian", "Occitan",
  "Polish", "Portuguese", "Romanian", "Romansh",
  "Serbian", "Slovak", "Slovene", "Finnish",
  "Swedish", "Turkish", "Flemish", "Walloon",
  "", "", "", "",
  "", "", "", "",
  "", "", "", "",
  "", "", "", "",
  "", "", "", "",
  "Background", "", "", "",
  "", "Zulu", "Vietnamese", "Uzbek",
  "Urdu", "Ukrainian", "Thai", "Telugu",
  "Tatar", "Tamil", "Tadzhik", "Swahili",
  "SrananTongo", "Somali", "Sinhalese", "Shona",
  "Serbo-Croat", "Ruthenian", "Russian", "Quechua",
  "Pushtu", "Punjabi", "Persian", "Papamiento",
  "Oriya", "Nepali", "Ndebele", "Marathi",
  "Moldovian", "Malaysian", "Malagasay", "Macedonian",
  "Laotian", "Korean", "Khmer", "Kazakh",
  "Kannada", "Japanese", "Indonesian", "Hindi",
  "Hebrew", "Hausa", "Gurani", "Gujurati",
  "Greek", "Georgian", "Fulani", "Dari",
  "Churash", "Chinese", "Burmese", "Bulgarian",
  "Bengali", "Belorussian", "Bambora", "Azerbaijan",
  "Assamese", "Armenian", "Arabic", "Amharic"]

/-- `getLanguageString`, src/tables.cc:116-154. -/
def getLanguageString (code : Nat) : Option Str :=
  if code < 128 then (utf8Str <$> languages[code]?) else some []

/-- `oda_apps` in `getAppNameString`, src/tables.cc:160-231. -/
def odaApps : List (Nat × String) := [
  (0x0000, "None"),
  (0x0093, "Cross referencing DAB within RDS"),
  (0x0BCB, "Leisure & Practical Info for Drivers"),
  (0x0C24, "ELECTRABEL-DSM 7"),
  (0x0CC1, "Wireless Playground broadcast control signal"),
  (0x0D45, "RDS-TMC: ALERT-C / EN ISO 14819-1"),
  (0x0D8B, "ELECTRABEL-DSM 18"),
  (0x0E2C, "ELECTRABEL-DSM 3"),
  (0x0E31, "ELECTRABEL-DSM 13"),
  (0x0F87, "ELECTRABEL-DSM 2"),
  (0x125F, "I-FM-RDS for fixed and mobile devices"),
  (0x1BDA, "ELECTRABEL-DSM 1"),
  (0x1C5E, "ELECTRABEL-DSM 20"),
  (0x1C68, "ITIS In-vehicle data base"),
  (0x1CB1, "ELECTRABEL-DSM 10"),
  (0x1D47, "ELECTRABEL-DSM 4"),
  (0x1DC2, "CITIBUS 4"),
  (0x1DC5, "Encrypted TTI using ALERT-Plus"),
  (0x1E8F, "ELECTRABEL-DSM 17"),
  (0x4400, "RDS-Light"),
  (0x4AA1, "RASANT"),
  (0x4AB7, "ELECTRABEL-DSM 9"),
  (0x4BA2, "ELECTRABEL-DSM 5"),
  (0x4BD7, "RadioText+ (RT+)"),
  (0x4BD8, "RadioText Plus / RT+ for eRT"),
  (0x4C59, "CITIBUS 2"),
  (0x4D87, "Radio Commerce System (RCS)"),
  (0x4D95, "ELECTRABEL-DSM 16"),
  (0x4D9A, "ELECTRABEL-DSM 11"),
  (0x50DD, "To warn people in case of disasters or emergency"),
  (0x5757, "Personal weather station"),
  (0x6363, "Hybradio RDS-Net(for testing use, only)"),
  (0x6365, "RDS2 – 9 bit AF lists ODA"),
  (0x6552, "Enhanced RadioText (eRT)"),
  (0x6A7A, "Warning receiver"),
  (0x7373, "Enhanced early warning system"),
  (0xA112, "NL _ Alert system"),
  (0xA911, "Data FM Selective Multipoint Messaging"),
  (0xABCF, "RF Power Monitoring"),
  (0xC350, "NRSC Song Title and Artist"),
  (0xC3A1, "Personal Radio Service"),
  (0xC3B0, "iTunes Tagging"),
  (0xC3C3, "NAVTEQ Traffic Plus"),
  (0xC4D4, "eEAS"),
  (0xC549, "Smart Grid Broadcast Channel"),
  (0xC563, "ID Logic"),
  (0xC6A7, "Veil Enabled Interactive Device"),
  (0xC737, "Utility Message Channel (UMC)"),
  (0xCB73, "CITIBUS 1"),
  (0xCB97, "ELECTRABEL-DSM 14"),
  (0xCC21, "CITIBUS 3"),
  (0xCD46, "RDS-TMC: ALERT-C"),
  (0xCD47, "RDS-TMC: ALERT-C"),
  (0xCD9E, "ELECTRABEL-DSM 8"),
  (0xCE6B, "Encrypted TTI using ALERT-Plus"),
  (0xE123, "APS Gateway"),
  (0xE1C1, "Action code"),
  (0xE319, "ELECTRABEL-DSM 12"),
  (0xE411, "Beacon downlink"),
  (0xE440, "ELECTRABEL-DSM 15"),
  (0xE4A6, "ELECTRABEL-DSM 19"),
  (0xE5D7, "ELECTRABEL-DSM 6"),
  (0xE911, "EAS open protocol"),
  (0xFF7F, "RFT: Station logo"),
  (0xFF80, "RFT+ (work title)")]

/-- `getAppNameString`, src/tables.cc:160-231. -/
def getAppNameString (aid : Nat) : Str := utf8Str ((odaApps.lookup aid).getD "(Unknown)")

/-- The 64 initialised elements of the 66-element array in `getRTPlusContentTypeString`,
src/tables.cc:235-263; the others are empty strings. -/
def contentTypeNames : List String := [
  "dummy_class", "item.title", "item.album", "item.tracknumber",
  "item.artist", "item.composition", "item.movement", "item.conductor",
  "item.composer", "item.band", "item.comment", "item.genre",
  "info.news", "info.news.local", "info.stockmarket", "info.sport",
  "info.lottery", "info.horoscope", "info.daily_diversion", "info.health",
  "info.event", "info.scene", "info.cinema", "info.tv",
  "info.date_time", "info.weather", "info.traffic", "info.alarm",
  "info.advertisement", "info.url", "info.other", "stationname.short",
  "stationname.long", "programme.now", "programme.next", "programme.part",
  "programme.host", "programme.editorial_staff", "programme.frequency", "programme.homepage",
  "programme.subchannel", "phone.hotline", "phone.studio", "phone.other",
  "sms.studio", "sms.other", "email.hotline", "email.studio",
  "email.other", "mms.other", "chat", "chat.centre",
  "vote.question", "vote.centre", "unknown", "unknown",
  "unknown", "unknown", "unknown", "place",
  "appointment", "identifier", "purchase", "get_data"]

/-- `getRTPlusContentTypeString`, src/tables.cc:235-263. -/
def getRTPlusContentTypeString (contentType : Nat) : Option Str :=
  if contentType < 66 then (utf8Str <$> (contentTypeNames ++ ["", ""])[contentType]?)
  else some (utf8Str "unknown")

/-- `di_codes` in `getDICodeString`, src/tables.cc:267-272. -/
def diCodes : List String := [
  "dynamic_pty", "compressed", "artificial_head", "stereo"]

/-- `getDICodeString`, src/tables.cc:267-272. -/
def getDICodeString (di : Nat) : Option Str :=
  if di < 4 then (utf8Str <$> diCodes[di]?) else some (utf8Str "unknown")

/-- `three_letter_codes` in `getCallsignFromPI`, src/tables.cc:276-353. -/
def threeLetterCodes : List (Nat × String) := [
  (0x99A5, "KBW"), (0x9992, "KOY"), (0x9978, "WHO"), (0x99A6, "KCY"), (0x9993, "KPQ"), (0x999C, "WHP"),
  (0x9990, "KDB"), (0x9964, "KQV"), (0x999D, "WIL"), (0x99A7, "KDF"), (0x9994, "KSD"), (0x997A, "WIP"),
  (0x9950, "KEX"), (0x9965, "KSL"), (0x99B3, "WIS"), (0x9951, "KFH"), (0x9966, "KUJ"), (0x997B, "WJR"),
  (0x9952, "KFI"), (0x9995, "KUT"), (0x99B4, "WJW"), (0x9953, "KGA"), (0x9967, "KVI"), (0x99B5, "WJZ"),
  (0x9991, "KGB"), (0x9968, "KWG"), (0x997C, "WKY"), (0x9954, "KGO"), (0x9996, "KXL"), (0x997D, "WLS"),
  (0x9955, "KGU"), (0x9997, "KXO"), (0x997E, "WLW"), (0x9956, "KGW"), (0x996B, "KYW"), (0x999E, "WMC"),
  (0x9957, "KGY"), (0x9999, "WBT"), (0x999F, "WMT"), (0x99AA, "KHQ"), (0x996D, "WBZ"), (0x9981, "WOC"),
  (0x9958, "KID"), (0x996E, "WDZ"), (0x99A0, "WOI"), (0x9959, "KIT"), (0x996F, "WEW"), (0x9983, "WOL"),
  (0x995A, "KJR"), (0x999A, "WGH"), (0x9984, "WOR"), (0x995B, "KLO"), (0x9971, "WGL"), (0x99A1, "WOW"),
  (0x995C, "KLZ"), (0x9972, "WGN"), (0x99B9, "WRC"), (0x995D, "KMA"), (0x9973, "WGR"), (0x99A2, "WRR"),
  (0x995E, "KMJ"), (0x999B, "WGY"), (0x99A3, "WSB"), (0x995F, "KNX"), (0x9975, "WHA"), (0x99A4, "WSM"),
  (0x9960, "KOA"), (0x9976, "WHB"), (0x9988, "WWJ"), (0x99AB, "KOB"), (0x9977, "WHK"), (0x9989, "WWL")]

/-- `linked_station_codes` in `getCallsignFromPI`, src/tables.cc:276-353. -/
def linkedStationCodes : List (Nat × String) := [
  (0xB001, "NPR-1"),
  (0xB002, "CBC English - Radio One"),
  (0xB003, "CBC English - Radio Two"),
  (0xB004, "CBC French => Radio-Canada - Première Chaîne"),
  (0xB005, "CBC French => Radio-Canada - Espace Musique"),
  (0xB006, "CBC"),
  (0xB007, "CBC"),
  (0xB008, "CBC"),
  (0xB009, "CBC"),
  (0xB00A, "NPR-2"),
  (0xB00B, "NPR-3"),
  (0xB00C, "NPR-4"),
  (0xB00D, "NPR-5"),
  (0xB00E, "NPR-6")]

/-- The exceptions for zero nybbles in `getCallsignFromPI`, src/tables.cc:309-323. -/
def undoZeroNybbles (pi : Word) : Word :=
  if pi &&& 0xFFF0#16 = 0xAFA0#16 ∧ (pi &&& 0x000F#16).toNat < 0x000A then pi <<< 12
  else if pi &&& 0xFF00#16 = 0xAF00#16 then pi <<< 8
  else if pi &&& 0xF000#16 = 0xA000#16 then ((pi &&& 0x0F00#16) <<< 4) ||| (pi &&& 0x00FF#16)
  else pi

/-- One letter, `static_cast<char>('A' + n)`. -/
def letter (n : Nat) : Byte := BitVec.ofNat 8 (0x41 + n)

/-- `getCallsignFromPI`, src/tables.cc:276-353. The empty string means no call sign. -/
def getCallsignFromPI (pi0 : Word) : Str :=
  let pi := undoZeroNybbles pi0
  if pi.toNat ≥ 0x9950 ∧ pi.toNat ≤ 0x9EFF then utf8Str ((threeLetterCodes.lookup pi.toNat).getD "")
  else if pi >>> 12 = 0xB#16 ∨ pi >>> 12 = 0xD#16 ∨ pi >>> 12 = 0xE#16 then
    utf8Str ((linkedStationCodes.lookup (pi &&& 0xF0FF#16).toNat).getD "")
  else if pi.toNat ≥ 0x1000 ∧ pi.toNat ≤ 0x994F then
    let first : Byte := if pi.toNat ≤ 0x54A7 then 0x4B else 0x57
    let n := pi.toNat - (if pi.toNat ≤ 0x54A7 then 0x1000 else 0x54A8)
    [first, letter (n / (26 * 26) % 26), letter (n / 26 % 26), letter (n % 26)]
  else []

end Redsea
