import Verif.Model.Text

/-
Countries and the codes that they use: extended country code (ECC) and the first digit of the PI code. The list is
ordered by country, as Tables D.1 and D.2 of the standard are. The standard itself was not at hand when it was written;
it was written down from knowledge of the standard, with the two-letter codes that src/tables.cc uses.
-/

namespace Redsea.Spec

/-- Europe, its neighbours in Asia, and North Africa. -/
def europeanCountries : List (String × List (Nat × Nat)) := [
  ("al", [(0xE0, 0x9)]),  -- Albania
  ("dz", [(0xE0, 0x2)]),  -- Algeria
  ("ad", [(0xE0, 0x3)]),  -- Andorra
  ("am", [(0xE4, 0xA)]),  -- Armenia
  ("at", [(0xE0, 0xA)]),  -- Austria
  ("az", [(0xE3, 0xB)]),  -- Azerbaijan
  ("by", [(0xE3, 0xF)]),  -- Belarus
  ("be", [(0xE0, 0x6)]),  -- Belgium
  ("ba", [(0xE4, 0xF)]),  -- Bosnia and Herzegovina
  ("bg", [(0xE1, 0x8)]),  -- Bulgaria
  ("hr", [(0xE3, 0xC)]),  -- Croatia
  ("cy", [(0xE1, 0x2)]),  -- Cyprus
  ("cz", [(0xE2, 0x2)]),  -- Czech Republic
  ("dk", [(0xE1, 0x9)]),  -- Denmark
  ("eg", [(0xE0, 0xF)]),  -- Egypt
  ("ee", [(0xE4, 0x2)]),  -- Estonia
  ("fi", [(0xE1, 0x6)]),  -- Finland
  ("fr", [(0xE1, 0xF)]),  -- France
  ("ge", [(0xE4, 0xC)]),  -- Georgia
  ("de", [(0xE0, 0x1), (0xE0, 0xD)]),  -- Germany
  ("gi", [(0xE1, 0xA)]),  -- Gibraltar
  ("gr", [(0xE1, 0x1)]),  -- Greece
  ("hu", [(0xE0, 0xB)]),  -- Hungary
  ("is", [(0xE2, 0xA)]),  -- Iceland
  ("iq", [(0xE1, 0xB)]),  -- Iraq
  ("ie", [(0xE3, 0x2)]),  -- Ireland
  ("il", [(0xE0, 0x4)]),  -- Israel
  ("it", [(0xE0, 0x5)]),  -- Italy
  ("jo", [(0xE1, 0x5)]),  -- Jordan
  ("kz", [(0xE3, 0xD)]),  -- Kazakhstan
  ("ks", [(0xE4, 0x7)]),  -- Kosovo
  ("kg", [(0xE4, 0x3)]),  -- Kyrgyzstan
  ("lv", [(0xE3, 0x9)]),  -- Latvia
  ("lb", [(0xE3, 0xA)]),  -- Lebanon
  ("ly", [(0xE1, 0xD)]),  -- Libya
  ("li", [(0xE2, 0x9)]),  -- Liechtenstein
  ("lt", [(0xE2, 0xC)]),  -- Lithuania
  ("lu", [(0xE1, 0x7)]),  -- Luxembourg
  ("mk", [(0xE3, 0x4)]),  -- Macedonia
  ("mt", [(0xE0, 0xC)]),  -- Malta
  ("md", [(0xE4, 0x1)]),  -- Moldova
  ("mc", [(0xE2, 0xB)]),  -- Monaco
  ("me", [(0xE3, 0x1)]),  -- Montenegro
  ("ma", [(0xE2, 0x1)]),  -- Morocco
  ("nl", [(0xE3, 0x8)]),  -- Netherlands
  ("no", [(0xE2, 0xF)]),  -- Norway
  ("ps", [(0xE0, 0x8)]),  -- Palestine
  ("pl", [(0xE2, 0x3)]),  -- Poland
  ("pt", [(0xE4, 0x8)]),  -- Portugal
  ("ro", [(0xE1, 0xE)]),  -- Romania
  ("ru", [(0xE0, 0x7)]),  -- Russian Federation
  ("sm", [(0xE1, 0x3)]),  -- San Marino
  ("rs", [(0xE2, 0xD)]),  -- Serbia
  ("sk", [(0xE2, 0x5)]),  -- Slovakia
  ("si", [(0xE4, 0x9)]),  -- Slovenia
  ("es", [(0xE2, 0xE)]),  -- Spain
  ("se", [(0xE3, 0xE)]),  -- Sweden
  ("ch", [(0xE1, 0x4)]),  -- Switzerland
  ("sy", [(0xE2, 0x6)]),  -- Syria
  ("tn", [(0xE2, 0x7)]),  -- Tunisia
  ("tr", [(0xE3, 0x3)]),  -- Turkey
  ("ua", [(0xE4, 0x6)]),  -- Ukraine
  ("gb", [(0xE1, 0xC)]),  -- United Kingdom
  ("va", [(0xE2, 0x4)])]  -- Vatican

/-- Africa south of the Sahara. -/
def africanCountries : List (String × List (Nat × Nat)) := [
  ("ao", [(0xD0, 0x6)]),  -- Angola
  ("bj", [(0xD0, 0xE)]),  -- Benin
  ("bw", [(0xD1, 0xB)]),  -- Botswana
  ("bf", [(0xD0, 0xB)]),  -- Burkina Faso
  ("bi", [(0xD1, 0x9)]),  -- Burundi
  ("cm", [(0xD0, 0x1)]),  -- Cameroon
  ("cv", [(0xD1, 0x6)]),  -- Cape Verde
  ("cf", [(0xD0, 0x2)]),  -- Central African Republic
  ("td", [(0xD2, 0x9)]),  -- Chad
  ("km", [(0xD1, 0xC)]),  -- Comoros
  ("cg", [(0xD0, 0xC)]),  -- Congo
  ("dj", [(0xD0, 0x3)]),  -- Djibouti
  ("gq", [(0xD0, 0x7)]),  -- Equatorial Guinea
  ("et", [(0xD1, 0xE)]),  -- Ethiopia
  ("ga", [(0xD0, 0x8)]),  -- Gabon
  ("gm", [(0xD1, 0x8)]),  -- Gambia
  ("gh", [(0xD1, 0x3)]),  -- Ghana
  ("gn", [(0xD0, 0x9)]),  -- Guinea
  ("gw", [(0xD2, 0xA)]),  -- Guinea-Bissau
  ("ci", [(0xD2, 0xC)]),  -- Ivory Coast
  ("ke", [(0xD2, 0x6)]),  -- Kenya
  ("ls", [(0xD3, 0x6)]),  -- Lesotho
  ("lr", [(0xD1, 0x2)]),  -- Liberia
  ("mg", [(0xD0, 0x4)]),  -- Madagascar
  ("mw", [(0xD0, 0xF)]),  -- Malawi
  ("ml", [(0xD0, 0x5)]),  -- Mali
  ("mr", [(0xD1, 0x4)]),  -- Mauritania
  ("mu", [(0xD3, 0xA)]),  -- Mauritius
  ("mz", [(0xD2, 0x3)]),  -- Mozambique
  ("na", [(0xD1, 0x1)]),  -- Namibia
  ("ne", [(0xD2, 0x8)]),  -- Niger
  ("ng", [(0xD1, 0xF)]),  -- Nigeria
  ("rw", [(0xD3, 0x5)]),  -- Rwanda
  ("st", [(0xD1, 0x5)]),  -- Sao Tome and Principe
  ("sn", [(0xD1, 0x7)]),  -- Senegal
  ("sc", [(0xD3, 0x8)]),  -- Seychelles
  ("sl", [(0xD2, 0x1)]),  -- Sierra Leone
  ("so", [(0xD2, 0x7)]),  -- Somalia
  ("za", [(0xD0, 0xA)]),  -- South Africa
  ("sd", [(0xD3, 0xC)]),  -- Sudan
  ("sz", [(0xD2, 0x5)]),  -- Swaziland
  ("tz", [(0xD1, 0xD), (0xD2, 0xD)]),  -- Tanzania and Zanzibar
  ("tg", [(0xD0, 0xD)]),  -- Togo
  ("ug", [(0xD2, 0x4)]),  -- Uganda
  ("eh", [(0xD3, 0x3)]),  -- Western Sahara
  ("zr", [(0xD2, 0xB)]),  -- Zaire
  ("zm", [(0xD2, 0xE)]),  -- Zambia
  ("zw", [(0xD2, 0x2)])]  -- Zimbabwe

/-- America and Greenland. -/
def americanCountries : List (String × List (Nat × Nat)) := [
  ("ai", [(0xA2, 0x1)]),  -- Anguilla
  ("ag", [(0xA2, 0x2)]),  -- Antigua and Barbuda
  ("ar", [(0xA2, 0xA)]),  -- Argentina
  ("aw", [(0xA4, 0x3)]),  -- Aruba
  ("bs", [(0xA2, 0xF)]),  -- Bahamas
  ("bb", [(0xA2, 0x5)]),  -- Barbados
  ("bz", [(0xA2, 0x6)]),  -- Belize
  ("bm", [(0xA2, 0xC)]),  -- Bermuda
  ("bo", [(0xA3, 0x1)]),  -- Bolivia
  ("br", [(0xA2, 0xB)]),  -- Brazil
  ("ca", [(0xA1, 0xB), (0xA1, 0xC), (0xA1, 0xD), (0xA1, 0xE)]),  -- Canada
  ("ky", [(0xA2, 0x7)]),  -- Cayman Islands
  ("cl", [(0xA3, 0xC)]),  -- Chile
  ("co", [(0xA3, 0x2)]),  -- Colombia
  ("cr", [(0xA2, 0x8)]),  -- Costa Rica
  ("cu", [(0xA2, 0x9)]),  -- Cuba
  ("dm", [(0xA3, 0xA)]),  -- Dominica
  ("do", [(0xA3, 0xB)]),  -- Dominican Republic
  ("ec", [(0xA2, 0x3)]),  -- Ecuador
  ("sv", [(0xA4, 0xC)]),  -- El Salvador
  ("fk", [(0xA2, 0x4)]),  -- Falkland Islands
  ("gf", [(0xA3, 0x5)]),  -- French Guiana
  ("gl", [(0xA1, 0xF)]),  -- Greenland
  ("gd", [(0xA3, 0xD)]),  -- Grenada
  ("gp", [(0xA2, 0xE)]),  -- Guadeloupe
  ("gt", [(0xA4, 0x1)]),  -- Guatemala
  ("gy", [(0xA3, 0xF)]),  -- Guyana
  ("ht", [(0xA4, 0xD)]),  -- Haiti
  ("hn", [(0xA4, 0x2)]),  -- Honduras
  ("jm", [(0xA3, 0x3)]),  -- Jamaica
  ("mq", [(0xA3, 0x4)]),  -- Martinique
  ("mx", [(0xA5, 0xB), (0xA5, 0xD), (0xA5, 0xE), (0xA5, 0xF)]),  -- Mexico
  ("ms", [(0xA4, 0x5)]),  -- Montserrat
  ("an", [(0xA2, 0xD)]),  -- Netherlands Antilles
  ("ni", [(0xA3, 0x7)]),  -- Nicaragua
  ("pa", [(0xA3, 0x9)]),  -- Panama
  ("py", [(0xA3, 0x6)]),  -- Paraguay
  ("pe", [(0xA4, 0x7)]),  -- Peru
  ("kn", [(0xA4, 0xA)]),  -- Saint Kitts
  ("lc", [(0xA4, 0xB)]),  -- Saint Lucia
  ("pm", [(0xA6, 0xF)]),  -- Saint Pierre and Miquelon
  ("vc", [(0xA5, 0xC)]),  -- Saint Vincent
  ("sr", [(0xA4, 0x8)]),  -- Suriname
  ("tt", [(0xA4, 0x6)]),  -- Trinidad and Tobago
  ("tc", [(0xA3, 0xE)]),  -- Turks and Caicos Islands
  ("us", [(0xA0, 0x1), (0xA0, 0x2), (0xA0, 0x3), (0xA0, 0x4), (0xA0, 0x5), (0xA0, 0x6), (0xA0, 0x7), (0xA0, 0x8), (0xA0, 0x9), (0xA0, 0xA), (0xA0, 0xB), (0xA0, 0xD), (0xA0, 0xE)]),  -- United States
  ("uy", [(0xA4, 0x9)]),  -- Uruguay
  ("ve", [(0xA4, 0xE)])]  -- Venezuela

/-- Asia and the Pacific. -/
def asianCountries : List (String × List (Nat × Nat)) := [
  ("af", [(0xF0, 0xA)]),  -- Afghanistan
  ("au", [(0xF0, 0x1), (0xF0, 0x2), (0xF0, 0x3), (0xF0, 0x4), (0xF0, 0x5), (0xF0, 0x6), (0xF0, 0x7), (0xF0, 0x8)]),  -- Australia
  ("bh", [(0xF0, 0xE)]),  -- Bahrain
  ("bd", [(0xF1, 0x3)]),  -- Bangladesh
  ("bt", [(0xF1, 0x2)]),  -- Bhutan
  ("bn", [(0xF1, 0xB)]),  -- Brunei Darussalam
  ("kh", [(0xF2, 0x3)]),  -- Cambodia
  ("cn", [(0xF0, 0xC)]),  -- China
  ("fj", [(0xF1, 0x5)]),  -- Fiji
  ("hk", [(0xF1, 0xF)]),  -- Hong Kong
  ("in", [(0xF2, 0x5)]),  -- India
  ("id", [(0xF2, 0xC)]),  -- Indonesia
  ("ir", [(0xF1, 0x8)]),  -- Iran
  ("jp", [(0xF2, 0x9)]),  -- Japan
  ("ki", [(0xF1, 0x1)]),  -- Kiribati
  ("kr", [(0xF1, 0xE)]),  -- Korea (South)
  ("kp", [(0xF0, 0xD)]),  -- Korea (North)
  ("kw", [(0xF2, 0x1)]),  -- Kuwait
  ("la", [(0xF3, 0x1)]),  -- Laos
  ("mo", [(0xF2, 0x6)]),  -- Macau
  ("my", [(0xF0, 0xF)]),  -- Malaysia
  ("mv", [(0xF2, 0xB)]),  -- Maldives
  ("fm", [(0xF3, 0xE)]),  -- Micronesia
  ("mn", [(0xF3, 0xF)]),  -- Mongolia
  ("mm", [(0xF0, 0xB)]),  -- Myanmar
  ("nr", [(0xF1, 0x7)]),  -- Nauru
  ("np", [(0xF2, 0xE)]),  -- Nepal
  ("nz", [(0xF1, 0x9)]),  -- New Zealand
  ("om", [(0xF1, 0x6)]),  -- Oman
  ("pk", [(0xF1, 0x4)]),  -- Pakistan
  ("pg", [(0xF3, 0x9)]),  -- Papua New Guinea
  ("ph", [(0xF2, 0x8)]),  -- Philippines
  ("qa", [(0xF2, 0x2)]),  -- Qatar
  ("ws", [(0xF2, 0x4)]),  -- Samoa
  ("sa", [(0xF0, 0x9)]),  -- Saudi Arabia
  ("sg", [(0xF2, 0xA)]),  -- Singapore
  ("sb", [(0xF1, 0xA)]),  -- Solomon Islands
  ("lk", [(0xF1, 0xC)]),  -- Sri Lanka
  ("tw", [(0xF1, 0xD)]),  -- Taiwan
  ("th", [(0xF3, 0x2)]),  -- Thailand
  ("to", [(0xF3, 0x3)]),  -- Tonga
  ("ae", [(0xF2, 0xD)]),  -- United Arab Emirates
  ("vu", [(0xF2, 0xF)]),  -- Vanuatu
  ("vn", [(0xF2, 0x7)]),  -- Vietnam
  ("ye", [(0xF3, 0xB)])]  -- Yemen

/-- The country that uses an ECC together with a first digit of the PI code. -/
def standardCountry (ecc digit : Nat) : Option String :=
  ((europeanCountries ++ africanCountries ++ americanCountries ++ asianCountries).find?
    fun e => e.2.any fun q => q.1 == ecc && q.2 == digit).map (·.1)

end Redsea.Spec
