import Verif.Iso.Model

/-!
# The country constants of crates/RustQuant_iso/src/iso_3166.rs

Generated by tools/gen_iso.py: one line per line of the Rust source, in order. `countryTable` is the `iso_3166!`
invocation (lines 325-645), `alpha2Arms` the arms of the `match` in `from_alpha_2` (lines
53-301).
-/

namespace Verif.Iso

/-- The `iso_3166!` invocation (iso_3166.rs 325-645): Rust identifier and constant. -/
def countryTable : List (String × Country) := [
  ("AFGHANISTAN", ⟨"AF", "AFG", "004"⟩),
  ("ÅLAND_ISLANDS", ⟨"AX", "ALA", "248"⟩),
  ("ALBANIA", ⟨"AL", "ALB", "008"⟩),
  ("ALGERIA", ⟨"DZ", "DZA", "012"⟩),
  ("AMERICAN_SAMOA", ⟨"AS", "ASM", "016"⟩),
  ("ANDORRA", ⟨"AD", "AND", "020"⟩),
  ("ANGOLA", ⟨"AO", "AGO", "024"⟩),
  ("ANGUILLA", ⟨"AI", "AIA", "660"⟩),
  ("ANTARCTICA", ⟨"AQ", "ATA", "010"⟩),
  ("ANTIGUA_AND_BARBUDA", ⟨"AG", "ATG", "028"⟩),
  ("ARGENTINA", ⟨"AR", "ARG", "032"⟩),
  ("ARMENIA", ⟨"AM", "ARM", "051"⟩),
  ("ARUBA", ⟨"AW", "ABW", "533"⟩),
  ("AUSTRALIA", ⟨"AU", "AUS", "036"⟩),
  ("AUSTRIA", ⟨"AT", "AUT", "040"⟩),
  ("AZERBAIJAN", ⟨"AZ", "AZE", "031"⟩),
  ("BAHAMAS", ⟨"BS", "BHS", "044"⟩),
  ("BAHRAIN", ⟨"BH", "BHR", "048"⟩),
  ("BANGLADESH", ⟨"BD", "BGD", "050"⟩),
  ("BARBADOS", ⟨"BB", "BRB", "052"⟩),
  ("BELARUS", ⟨"BY", "BLR", "112"⟩),
  ("BELGIUM", ⟨"BE", "BEL", "056"⟩),
  ("BELIZE", ⟨"BZ", "BLZ", "084"⟩),
  ("BENIN", ⟨"BJ", "BEN", "204"⟩),
  ("BERMUDA", ⟨"BM", "BMU", "060"⟩),
  ("BHUTAN", ⟨"BT", "BTN", "064"⟩),
  ("BOLIVIA", ⟨"BO", "BOL", "068"⟩),
  ("BONAIRE_SINT_EUSTATIUS_AND_SABA", ⟨"BQ", "BES", "535"⟩),
  ("BOSNIA_AND_HERZEGOVINA", ⟨"BA", "BIH", "070"⟩),
  ("BOTSWANA", ⟨"BW", "BWA", "072"⟩),
  ("BOUVET_ISLAND", ⟨"BV", "BVT", "074"⟩),
  ("BRAZIL", ⟨"BR", "BRA", "076"⟩),
  ("BRITISH_INDIAN_OCEAN_TERRITORY", ⟨"IO", "IOT", "086"⟩),
  ("BRUNEI_DARUSSALAM", ⟨"BN", "BRN", "096"⟩),
  ("BULGARIA", ⟨"BG", "BGR", "100"⟩),
  ("BURKINA_FASO", ⟨"BF", "BFA", "854"⟩),
  ("BURUNDI", ⟨"BI", "BDI", "108"⟩),
  ("CABO_VERDE", ⟨"CV", "CPV", "132"⟩),
  ("CAMBODIA", ⟨"KH", "KHM", "116"⟩),
  ("CAMEROON", ⟨"CM", "CMR", "120"⟩),
  ("CANADA", ⟨"CA", "CAN", "124"⟩),
  ("CAYMAN_ISLANDS", ⟨"KY", "CYM", "136"⟩),
  ("CENTRAL_AFRICAN_REPUBLIC", ⟨"CF", "CAF", "140"⟩),
  ("CHAD", ⟨"TD", "TCD", "148"⟩),
  ("CHILE", ⟨"CL", "CHL", "152"⟩),
  ("CHINA", ⟨"CN", "CHN", "156"⟩),
  ("CHRISTMANS_ISLAND", ⟨"CX", "CXR", "162"⟩),
  ("COCOS_ISLANDS", ⟨"CC", "CCK", "166"⟩),
  ("COLOMBIA", ⟨"CO", "COL", "170"⟩),
  ("COMOROS", ⟨"KM", "COM", "174"⟩),
  ("CONGO", ⟨"CG", "COG", "178"⟩),
  ("CONGO_DEMOCRATIC_REPUBLIC", ⟨"CD", "COD", "180"⟩),
  ("COOK_ISLANDS", ⟨"CK", "COK", "184"⟩),
  ("COSTA_RICA", ⟨"CR", "CRI", "188"⟩),
  ("CÔTE_DIVOIRE", ⟨"CI", "CIV", "384"⟩),
  ("CROATIA", ⟨"HR", "HRV", "191"⟩),
  ("CUBA", ⟨"CU", "CUB", "192"⟩),
  ("CURAÇAO", ⟨"CW", "CUW", "531"⟩),
  ("CYPRUS", ⟨"CY", "CYP", "196"⟩),
  ("CZECH_REPUBLIC", ⟨"CZ", "CZE", "203"⟩),
  ("DENMARK", ⟨"DK", "DNK", "208"⟩),
  ("DJIBOUTI", ⟨"DJ", "DJI", "262"⟩),
  ("DOMINICA", ⟨"DM", "DMA", "212"⟩),
  ("DOMINICAN_REPUBLIC", ⟨"DO", "DOM", "214"⟩),
  ("ECUADOR", ⟨"EC", "ECU", "218"⟩),
  ("EGYPT", ⟨"EG", "EGY", "818"⟩),
  ("EL_SALVADOR", ⟨"SV", "SLV", "222"⟩),
  ("EQUATORIAL_GUINEA", ⟨"GQ", "GNQ", "226"⟩),
  ("ERITREA", ⟨"ER", "ERI", "232"⟩),
  ("ESTONIA", ⟨"EE", "EST", "233"⟩),
  ("ESWATINI", ⟨"SZ", "SWZ", "748"⟩),
  ("ETHIOPIA", ⟨"ET", "ETH", "231"⟩),
  ("FALKLAND_ISLANDS", ⟨"FK", "FLK", "238"⟩),
  ("FAROE_ISLANDS", ⟨"FO", "FRO", "234"⟩),
  ("FIJI", ⟨"FJ", "FJI", "242"⟩),
  ("FINLAND", ⟨"FI", "FIN", "246"⟩),
  ("FRANCE", ⟨"FR", "FRA", "250"⟩),
  ("FRENCH_GUINEA", ⟨"GF", "GUF", "254"⟩),
  ("FRENCH_POLYNESIA", ⟨"PF", "PYF", "258"⟩),
  ("FRENCH_SOUTHERN_TERRITORIES", ⟨"TF", "ATF", "260"⟩),
  ("GABON", ⟨"GA", "GAB", "266"⟩),
  ("GAMBIA", ⟨"GM", "GMB", "270"⟩),
  ("GEORGIA", ⟨"GE", "GEO", "268"⟩),
  ("GERMANY", ⟨"DE", "DEU", "276"⟩),
  ("GHANA", ⟨"GH", "GHA", "288"⟩),
  ("GIBRALTAR", ⟨"GI", "GIB", "292"⟩),
  ("GREECE", ⟨"GR", "GRC", "300"⟩),
  ("GREENLAND", ⟨"GL", "GRL", "304"⟩),
  ("GRENADA", ⟨"GD", "GRD", "308"⟩),
  ("GUADELOUPE", ⟨"GP", "GLP", "312"⟩),
  ("GUAM", ⟨"GU", "GUM", "316"⟩),
  ("GUATEMALA", ⟨"GT", "GTM", "320"⟩),
  ("GUERNSEY", ⟨"GG", "GGY", "831"⟩),
  ("GUINEA", ⟨"GN", "GIN", "324"⟩),
  ("GUINEA_BISSAU", ⟨"GW", "GNB", "624"⟩),
  ("GUYANA", ⟨"GY", "GUY", "328"⟩),
  ("HAITI", ⟨"HT", "HTI", "332"⟩),
  ("HEARD_ISLAND_AND_MCDONALD_ISLANDS", ⟨"HM", "HMD", "334"⟩),
  ("HOLY_SEE", ⟨"VA", "VAT", "336"⟩),
  ("HONDURAS", ⟨"HN", "HND", "340"⟩),
  ("HONG_KONG", ⟨"HK", "HKG", "344"⟩),
  ("HUNGARY", ⟨"HU", "HUN", "348"⟩),
  ("ICELAND", ⟨"IS", "ISL", "352"⟩),
  ("INDIA", ⟨"IN", "IND", "356"⟩),
  ("INDONESIA", ⟨"ID", "IDN", "360"⟩),
  ("IRAN", ⟨"IR", "IRN", "364"⟩),
  ("IRAQ", ⟨"IQ", "IRQ", "368"⟩),
  ("IRELAND", ⟨"IE", "IRL", "372"⟩),
  ("ISLE_OF_MAN", ⟨"IM", "IMN", "833"⟩),
  ("ISRAEL", ⟨"IL", "ISR", "376"⟩),
  ("ITALY", ⟨"IT", "ITA", "380"⟩),
  ("JAMAICA", ⟨"JM", "JAM", "388"⟩),
  ("JAPAN", ⟨"JP", "JPN", "392"⟩),
  ("JERSEY", ⟨"JE", "JEY", "832"⟩),
  ("JORDAN", ⟨"JO", "JOR", "400"⟩),
  ("KAZAKHSTAN", ⟨"KZ", "KAZ", "398"⟩),
  ("KENYA", ⟨"KE", "KEN", "404"⟩),
  ("KIRIBATI", ⟨"KI", "KIR", "296"⟩),
  ("KOREA_DEMOCRATIC_PEOPLE_REPUBLIC", ⟨"KP", "PRK", "408"⟩),
  ("KOREA_REPUBLIC", ⟨"KR", "KOR", "410"⟩),
  ("KUWAIT", ⟨"KW", "KWT", "414"⟩),
  ("KYRGYZSTAN", ⟨"KG", "KGZ", "417"⟩),
  ("LAO_PEOPLE_DEMOCRATIC_REPUBLIC", ⟨"LA", "LAO", "418"⟩),
  ("LATVIA", ⟨"LV", "LVA", "428"⟩),
  ("LEBANON", ⟨"LB", "LBN", "422"⟩),
  ("LESOTHO", ⟨"LS", "LSO", "426"⟩),
  ("LIBERIA", ⟨"LR", "LBR", "430"⟩),
  ("LIBYA", ⟨"LY", "LBY", "434"⟩),
  ("LIECHTENSTEIN", ⟨"LI", "LIE", "438"⟩),
  ("LITHUANIA", ⟨"LT", "LTU", "440"⟩),
  ("LUXEMBOURG", ⟨"LU", "LUX", "442"⟩),
  ("MACAO", ⟨"MO", "MAC", "446"⟩),
  ("MADAGASCAR", ⟨"MG", "MDG", "450"⟩),
  ("MALAWI", ⟨"MW", "MWI", "454"⟩),
  ("MALAYSIA", ⟨"MY", "MYS", "458"⟩),
  ("MALDIVES", ⟨"MV", "MDV", "462"⟩),
  ("MALI", ⟨"ML", "MLI", "466"⟩),
  ("MALTA", ⟨"MT", "MLT", "470"⟩),
  ("MARSHALL_ISLANDS", ⟨"MH", "MHL", "584"⟩),
  ("MARTINIQUE", ⟨"MQ", "MTQ", "474"⟩),
  ("MAURITANIA", ⟨"MR", "MRT", "478"⟩),
  ("MAURITIUS", ⟨"MU", "MUS", "480"⟩),
  ("MAYOTTE", ⟨"YT", "MYT", "175"⟩),
  ("MEXICO", ⟨"MX", "MEX", "484"⟩),
  ("MICRONESIA", ⟨"FM", "FSM", "583"⟩),
  ("MOLDOVA", ⟨"MD", "MDA", "498"⟩),
  ("MONACO", ⟨"MC", "MCO", "492"⟩),
  ("MONGOLIA", ⟨"MN", "MNG", "496"⟩),
  ("MONTENEGRO", ⟨"ME", "MNE", "499"⟩),
  ("MONTSERRAT", ⟨"MS", "MSR", "500"⟩),
  ("MOROCCO", ⟨"MA", "MAR", "504"⟩),
  ("MOZAMBIQUE", ⟨"MZ", "MOZ", "508"⟩),
  ("MYANMAR", ⟨"MM", "MMR", "104"⟩),
  ("NAMIBIA", ⟨"NA", "NAM", "516"⟩),
  ("NAURU", ⟨"NR", "NRU", "520"⟩),
  ("NEPAL", ⟨"NP", "NPL", "524"⟩),
  ("NETHERLANDS", ⟨"NL", "NLD", "528"⟩),
  ("NEW_CALEDONIA", ⟨"NC", "NCL", "540"⟩),
  ("NEW_ZEALAND", ⟨"NZ", "NZL", "554"⟩),
  ("NICARAGUA", ⟨"NI", "NIC", "558"⟩),
  ("NIGER", ⟨"NE", "NER", "562"⟩),
  ("NIGERIA", ⟨"NG", "NGA", "566"⟩),
  ("NIUE", ⟨"NU", "NIU", "570"⟩),
  ("NORFOLK_ISLAND", ⟨"NF", "NFK", "574"⟩),
  ("NORTH_MACEDONIA", ⟨"MK", "MKD", "807"⟩),
  ("NORTHERN_MARIANA_ISLANDS", ⟨"MP", "MNP", "580"⟩),
  ("NORWAY", ⟨"NO", "NOR", "578"⟩),
  ("OMAN", ⟨"OM", "OMN", "512"⟩),
  ("PAKISTAN", ⟨"PK", "PAK", "586"⟩),
  ("PALAU", ⟨"PW", "PLW", "585"⟩),
  ("PALESTINE", ⟨"PS", "PSE", "275"⟩),
  ("PANAMA", ⟨"PA", "PAN", "591"⟩),
  ("PAPUA_NEW_GUINEA", ⟨"PG", "PNG", "598"⟩),
  ("PARAGUAY", ⟨"PY", "PRY", "600"⟩),
  ("PERU", ⟨"PE", "PER", "604"⟩),
  ("PHILIPPINES", ⟨"PH", "PHL", "608"⟩),
  ("PITCAIRN", ⟨"PN", "PCN", "612"⟩),
  ("POLAND", ⟨"PL", "POL", "616"⟩),
  ("PORTUGAL", ⟨"PT", "PRT", "620"⟩),
  ("PUERTO_RICO", ⟨"PR", "PRI", "630"⟩),
  ("QATAR", ⟨"QA", "QAT", "634"⟩),
  ("RÉUNION", ⟨"RE", "REU", "638"⟩),
  ("ROMANIA", ⟨"RO", "ROU", "642"⟩),
  ("RUSSIAN_FEDERATION", ⟨"RU", "RUS", "643"⟩),
  ("RWANDA", ⟨"RW", "RWA", "646"⟩),
  ("SAINT_BARTHELEMY", ⟨"BL", "BLM", "652"⟩),
  ("SAINT_HELENA_ASCENSION_AND_TRISTAN_DA_CUNHA", ⟨"SH", "SHN", "654"⟩),
  ("SAINT_KITTS_AND_NEVIS", ⟨"KN", "KNA", "659"⟩),
  ("SAINT_LUCIA", ⟨"LC", "LCA", "662"⟩),
  ("SAINT_MARTIN", ⟨"MF", "MAF", "663"⟩),
  ("SAINT_PIERRE_AND_MIQUELON", ⟨"PM", "SPM", "666"⟩),
  ("SAINT_VINCENT_AND_THE_GRENADINES", ⟨"VC", "VCT", "670"⟩),
  ("SAMOA", ⟨"WS", "WSM", "882"⟩),
  ("SAN_MARINO", ⟨"SM", "SMR", "674"⟩),
  ("SAO_TOME_AND_PRINCIPE", ⟨"ST", "STP", "678"⟩),
  ("SAUDI_ARABIA", ⟨"SA", "SAU", "682"⟩),
  ("SENEGAL", ⟨"SN", "SEN", "686"⟩),
  ("SERBIA", ⟨"RS", "SRB", "688"⟩),
  ("SEYCHELLES", ⟨"SC", "SYC", "690"⟩),
  ("SIERRA_LEONE", ⟨"SL", "SLE", "694"⟩),
  ("SINGAPORE", ⟨"SG", "SGP", "702"⟩),
  ("SINT_MAARTEN", ⟨"SX", "SXM", "534"⟩),
  ("SLOVAKIA", ⟨"SK", "SVK", "703"⟩),
  ("SLOVENIA", ⟨"SI", "SVN", "705"⟩),
  ("SOLOMON_ISLANDS", ⟨"SB", "SLB", "090"⟩),
  ("SOMALIA", ⟨"SO", "SOM", "706"⟩),
  ("SOUTH_AFRICA", ⟨"ZA", "ZAF", "710"⟩),
  ("SOUTH_GEORGIA_AND_THE_SOUTH_SANDWICH_ISLANDS", ⟨"GS", "SGS", "239"⟩),
  ("SOUTH_SUDAN", ⟨"SS", "SSD", "728"⟩),
  ("SPAIN", ⟨"ES", "ESP", "724"⟩),
  ("SRI_LANKA", ⟨"LK", "LKA", "144"⟩),
  ("SUDAN", ⟨"SD", "SDN", "729"⟩),
  ("SURINAME", ⟨"SR", "SUR", "740"⟩),
  ("SVALBARD_AND_JAN_MAYEN", ⟨"SJ", "SJM", "744"⟩),
  ("SWEDEN", ⟨"SE", "SWE", "752"⟩),
  ("SWITZERLAND", ⟨"CH", "CHE", "756"⟩),
  ("SYRIAN_ARAB_REPUBLIC", ⟨"SY", "SYR", "760"⟩),
  ("TAIWAN", ⟨"TW", "TWN", "158"⟩),
  ("TAJIKISTAN", ⟨"TJ", "TJK", "762"⟩),
  ("TANZANIA", ⟨"TZ", "TZA", "834"⟩),
  ("THAILAND", ⟨"TH", "THA", "764"⟩),
  ("TIMOR_LESTE", ⟨"TL", "TLS", "626"⟩),
  ("TOGO", ⟨"TG", "TGO", "768"⟩),
  ("TOKELAU", ⟨"TK", "TKL", "772"⟩),
  ("TONGA", ⟨"TO", "TON", "776"⟩),
  ("TRINIDAD_AND_TOBAGO", ⟨"TT", "TTO", "780"⟩),
  ("TUNISIA", ⟨"TN", "TUN", "788"⟩),
  ("TURKEY", ⟨"TR", "TUR", "792"⟩),
  ("TURKMENISTAN", ⟨"TM", "TKM", "795"⟩),
  ("TURKS_AND_CAICOS_ISLANDS", ⟨"TC", "TCA", "796"⟩),
  ("TUVALU", ⟨"TV", "TUV", "798"⟩),
  ("UGANDA", ⟨"UG", "UGA", "800"⟩),
  ("UKRAINE", ⟨"UA", "UKR", "804"⟩),
  ("UNITED_ARAB_EMIRATES", ⟨"AE", "ARE", "784"⟩),
  ("UNITED_KINGDOM_OF_GREAT_BRITAIN_AND_NORTHERN_IRELAND", ⟨"GB", "GBR", "826"⟩),
  ("UNITED_STATES_OF_AMERICA", ⟨"US", "USA", "840"⟩),
  ("UNITED_STATES_MINOR_OUTLYING_ISLANDS", ⟨"UM", "UMI", "581"⟩),
  ("URUGUAY", ⟨"UY", "URY", "858"⟩),
  ("UZBEKISTAN", ⟨"UZ", "UZB", "860"⟩),
  ("VANUATU", ⟨"VU", "VUT", "548"⟩),
  ("VENEZUELA", ⟨"VE", "VEN", "862"⟩),
  ("VIETNAM", ⟨"VN", "VNM", "704"⟩),
  ("VIRGIN_ISLANDS_BRITISH", ⟨"VG", "VGB", "092"⟩),
  ("VIRGIN_ISLANDS_US", ⟨"VI", "VIR", "850"⟩),
  ("WALLIS_AND_FUTUNA", ⟨"WF", "WLF", "876"⟩),
  ("WESTERN_SAHARA", ⟨"EH", "ESH", "732"⟩),
  ("YEMEN", ⟨"YE", "YEM", "887"⟩),
  ("ZAMBIA", ⟨"ZM", "ZMB", "894"⟩),
  ("ZIMBABWE", ⟨"ZW", "ZWE", "716"⟩)]

/-- The same entries with their strings spelt out, for the checks. -/
def countryChars : List (List Char × CountryChars) := [
  (['A','F','G','H','A','N','I','S','T','A','N'], ⟨['A','F'], ['A','F','G'], ['0','0','4']⟩),
  (['Å','L','A','N','D','_','I','S','L','A','N','D','S'], ⟨['A','X'], ['A','L','A'], ['2','4','8']⟩),
  (['A','L','B','A','N','I','A'], ⟨['A','L'], ['A','L','B'], ['0','0','8']⟩),
  (['A','L','G','E','R','I','A'], ⟨['D','Z'], ['D','Z','A'], ['0','1','2']⟩),
  (['A','M','E','R','I','C','A','N','_','S','A','M','O','A'], ⟨['A','S'], ['A','S','M'], ['0','1','6']⟩),
  (['A','N','D','O','R','R','A'], ⟨['A','D'], ['A','N','D'], ['0','2','0']⟩),
  (['A','N','G','O','L','A'], ⟨['A','O'], ['A','G','O'], ['0','2','4']⟩),
  (['A','N','G','U','I','L','L','A'], ⟨['A','I'], ['A','I','A'], ['6','6','0']⟩),
  (['A','N','T','A','R','C','T','I','C','A'], ⟨['A','Q'], ['A','T','A'], ['0','1','0']⟩),
  (['A','N','T','I','G','U','A','_','A','N','D','_','B','A','R','B','U','D','A'], ⟨['A','G'], ['A','T','G'], ['0','2','8']⟩),
  (['A','R','G','E','N','T','I','N','A'], ⟨['A','R'], ['A','R','G'], ['0','3','2']⟩),
  (['A','R','M','E','N','I','A'], ⟨['A','M'], ['A','R','M'], ['0','5','1']⟩),
  (['A','R','U','B','A'], ⟨['A','W'], ['A','B','W'], ['5','3','3']⟩),
  (['A','U','S','T','R','A','L','I','A'], ⟨['A','U'], ['A','U','S'], ['0','3','6']⟩),
  (['A','U','S','T','R','I','A'], ⟨['A','T'], ['A','U','T'], ['0','4','0']⟩),
  (['A','Z','E','R','B','A','I','J','A','N'], ⟨['A','Z'], ['A','Z','E'], ['0','3','1']⟩),
  (['B','A','H','A','M','A','S'], ⟨['B','S'], ['B','H','S'], ['0','4','4']⟩),
  (['B','A','H','R','A','I','N'], ⟨['B','H'], ['B','H','R'], ['0','4','8']⟩),
  (['B','A','N','G','L','A','D','E','S','H'], ⟨['B','D'], ['B','G','D'], ['0','5','0']⟩),
  (['B','A','R','B','A','D','O','S'], ⟨['B','B'], ['B','R','B'], ['0','5','2']⟩),
  (['B','E','L','A','R','U','S'], ⟨['B','Y'], ['B','L','R'], ['1','1','2']⟩),
  (['B','E','L','G','I','U','M'], ⟨['B','E'], ['B','E','L'], ['0','5','6']⟩),
  (['B','E','L','I','Z','E'], ⟨['B','Z'], ['B','L','Z'], ['0','8','4']⟩),
  (['B','E','N','I','N'], ⟨['B','J'], ['B','E','N'], ['2','0','4']⟩),
  (['B','E','R','M','U','D','A'], ⟨['B','M'], ['B','M','U'], ['0','6','0']⟩),
  (['B','H','U','T','A','N'], ⟨['B','T'], ['B','T','N'], ['0','6','4']⟩),
  (['B','O','L','I','V','I','A'], ⟨['B','O'], ['B','O','L'], ['0','6','8']⟩),
  (['B','O','N','A','I','R','E','_','S','I','N','T','_','E','U','S','T','A','T','I','U','S','_','A','N','D','_','S','A','B','A'], ⟨['B','Q'], ['B','E','S'], ['5','3','5']⟩),
  (['B','O','S','N','I','A','_','A','N','D','_','H','E','R','Z','E','G','O','V','I','N','A'], ⟨['B','A'], ['B','I','H'], ['0','7','0']⟩),
  (['B','O','T','S','W','A','N','A'], ⟨['B','W'], ['B','W','A'], ['0','7','2']⟩),
  (['B','O','U','V','E','T','_','I','S','L','A','N','D'], ⟨['B','V'], ['B','V','T'], ['0','7','4']⟩),
  (['B','R','A','Z','I','L'], ⟨['B','R'], ['B','R','A'], ['0','7','6']⟩),
  (['B','R','I','T','I','S','H','_','I','N','D','I','A','N','_','O','C','E','A','N','_','T','E','R','R','I','T','O','R','Y'], ⟨['I','O'], ['I','O','T'], ['0','8','6']⟩),
  (['B','R','U','N','E','I','_','D','A','R','U','S','S','A','L','A','M'], ⟨['B','N'], ['B','R','N'], ['0','9','6']⟩),
  (['B','U','L','G','A','R','I','A'], ⟨['B','G'], ['B','G','R'], ['1','0','0']⟩),
  (['B','U','R','K','I','N','A','_','F','A','S','O'], ⟨['B','F'], ['B','F','A'], ['8','5','4']⟩),
  (['B','U','R','U','N','D','I'], ⟨['B','I'], ['B','D','I'], ['1','0','8']⟩),
  (['C','A','B','O','_','V','E','R','D','E'], ⟨['C','V'], ['C','P','V'], ['1','3','2']⟩),
  (['C','A','M','B','O','D','I','A'], ⟨['K','H'], ['K','H','M'], ['1','1','6']⟩),
  (['C','A','M','E','R','O','O','N'], ⟨['C','M'], ['C','M','R'], ['1','2','0']⟩),
  (['C','A','N','A','D','A'], ⟨['C','A'], ['C','A','N'], ['1','2','4']⟩),
  (['C','A','Y','M','A','N','_','I','S','L','A','N','D','S'], ⟨['K','Y'], ['C','Y','M'], ['1','3','6']⟩),
  (['C','E','N','T','R','A','L','_','A','F','R','I','C','A','N','_','R','E','P','U','B','L','I','C'], ⟨['C','F'], ['C','A','F'], ['1','4','0']⟩),
  (['C','H','A','D'], ⟨['T','D'], ['T','C','D'], ['1','4','8']⟩),
  (['C','H','I','L','E'], ⟨['C','L'], ['C','H','L'], ['1','5','2']⟩),
  (['C','H','I','N','A'], ⟨['C','N'], ['C','H','N'], ['1','5','6']⟩),
  (['C','H','R','I','S','T','M','A','N','S','_','I','S','L','A','N','D'], ⟨['C','X'], ['C','X','R'], ['1','6','2']⟩),
  (['C','O','C','O','S','_','I','S','L','A','N','D','S'], ⟨['C','C'], ['C','C','K'], ['1','6','6']⟩),
  (['C','O','L','O','M','B','I','A'], ⟨['C','O'], ['C','O','L'], ['1','7','0']⟩),
  (['C','O','M','O','R','O','S'], ⟨['K','M'], ['C','O','M'], ['1','7','4']⟩),
  (['C','O','N','G','O'], ⟨['C','G'], ['C','O','G'], ['1','7','8']⟩),
  (['C','O','N','G','O','_','D','E','M','O','C','R','A','T','I','C','_','R','E','P','U','B','L','I','C'], ⟨['C','D'], ['C','O','D'], ['1','8','0']⟩),
  (['C','O','O','K','_','I','S','L','A','N','D','S'], ⟨['C','K'], ['C','O','K'], ['1','8','4']⟩),
  (['C','O','S','T','A','_','R','I','C','A'], ⟨['C','R'], ['C','R','I'], ['1','8','8']⟩),
  (['C','Ô','T','E','_','D','I','V','O','I','R','E'], ⟨['C','I'], ['C','I','V'], ['3','8','4']⟩),
  (['C','R','O','A','T','I','A'], ⟨['H','R'], ['H','R','V'], ['1','9','1']⟩),
  (['C','U','B','A'], ⟨['C','U'], ['C','U','B'], ['1','9','2']⟩),
  (['C','U','R','A','Ç','A','O'], ⟨['C','W'], ['C','U','W'], ['5','3','1']⟩),
  (['C','Y','P','R','U','S'], ⟨['C','Y'], ['C','Y','P'], ['1','9','6']⟩),
  (['C','Z','E','C','H','_','R','E','P','U','B','L','I','C'], ⟨['C','Z'], ['C','Z','E'], ['2','0','3']⟩),
  (['D','E','N','M','A','R','K'], ⟨['D','K'], ['D','N','K'], ['2','0','8']⟩),
  (['D','J','I','B','O','U','T','I'], ⟨['D','J'], ['D','J','I'], ['2','6','2']⟩),
  (['D','O','M','I','N','I','C','A'], ⟨['D','M'], ['D','M','A'], ['2','1','2']⟩),
  (['D','O','M','I','N','I','C','A','N','_','R','E','P','U','B','L','I','C'], ⟨['D','O'], ['D','O','M'], ['2','1','4']⟩),
  (['E','C','U','A','D','O','R'], ⟨['E','C'], ['E','C','U'], ['2','1','8']⟩),
  (['E','G','Y','P','T'], ⟨['E','G'], ['E','G','Y'], ['8','1','8']⟩),
  (['E','L','_','S','A','L','V','A','D','O','R'], ⟨['S','V'], ['S','L','V'], ['2','2','2']⟩),
  (['E','Q','U','A','T','O','R','I','A','L','_','G','U','I','N','E','A'], ⟨['G','Q'], ['G','N','Q'], ['2','2','6']⟩),
  (['E','R','I','T','R','E','A'], ⟨['E','R'], ['E','R','I'], ['2','3','2']⟩),
  (['E','S','T','O','N','I','A'], ⟨['E','E'], ['E','S','T'], ['2','3','3']⟩),
  (['E','S','W','A','T','I','N','I'], ⟨['S','Z'], ['S','W','Z'], ['7','4','8']⟩),
  (['E','T','H','I','O','P','I','A'], ⟨['E','T'], ['E','T','H'], ['2','3','1']⟩),
  (['F','A','L','K','L','A','N','D','_','I','S','L','A','N','D','S'], ⟨['F','K'], ['F','L','K'], ['2','3','8']⟩),
  (['F','A','R','O','E','_','I','S','L','A','N','D','S'], ⟨['F','O'], ['F','R','O'], ['2','3','4']⟩),
  (['F','I','J','I'], ⟨['F','J'], ['F','J','I'], ['2','4','2']⟩),
  (['F','I','N','L','A','N','D'], ⟨['F','I'], ['F','I','N'], ['2','4','6']⟩),
  (['F','R','A','N','C','E'], ⟨['F','R'], ['F','R','A'], ['2','5','0']⟩),
  (['F','R','E','N','C','H','_','G','U','I','N','E','A'], ⟨['G','F'], ['G','U','F'], ['2','5','4']⟩),
  (['F','R','E','N','C','H','_','P','O','L','Y','N','E','S','I','A'], ⟨['P','F'], ['P','Y','F'], ['2','5','8']⟩),
  (['F','R','E','N','C','H','_','S','O','U','T','H','E','R','N','_','T','E','R','R','I','T','O','R','I','E','S'], ⟨['T','F'], ['A','T','F'], ['2','6','0']⟩),
  (['G','A','B','O','N'], ⟨['G','A'], ['G','A','B'], ['2','6','6']⟩),
  (['G','A','M','B','I','A'], ⟨['G','M'], ['G','M','B'], ['2','7','0']⟩),
  (['G','E','O','R','G','I','A'], ⟨['G','E'], ['G','E','O'], ['2','6','8']⟩),
  (['G','E','R','M','A','N','Y'], ⟨['D','E'], ['D','E','U'], ['2','7','6']⟩),
  (['G','H','A','N','A'], ⟨['G','H'], ['G','H','A'], ['2','8','8']⟩),
  (['G','I','B','R','A','L','T','A','R'], ⟨['G','I'], ['G','I','B'], ['2','9','2']⟩),
  (['G','R','E','E','C','E'], ⟨['G','R'], ['G','R','C'], ['3','0','0']⟩),
  (['G','R','E','E','N','L','A','N','D'], ⟨['G','L'], ['G','R','L'], ['3','0','4']⟩),
  (['G','R','E','N','A','D','A'], ⟨['G','D'], ['G','R','D'], ['3','0','8']⟩),
  (['G','U','A','D','E','L','O','U','P','E'], ⟨['G','P'], ['G','L','P'], ['3','1','2']⟩),
  (['G','U','A','M'], ⟨['G','U'], ['G','U','M'], ['3','1','6']⟩),
  (['G','U','A','T','E','M','A','L','A'], ⟨['G','T'], ['G','T','M'], ['3','2','0']⟩),
  (['G','U','E','R','N','S','E','Y'], ⟨['G','G'], ['G','G','Y'], ['8','3','1']⟩),
  (['G','U','I','N','E','A'], ⟨['G','N'], ['G','I','N'], ['3','2','4']⟩),
  (['G','U','I','N','E','A','_','B','I','S','S','A','U'], ⟨['G','W'], ['G','N','B'], ['6','2','4']⟩),
  (['G','U','Y','A','N','A'], ⟨['G','Y'], ['G','U','Y'], ['3','2','8']⟩),
  (['H','A','I','T','I'], ⟨['H','T'], ['H','T','I'], ['3','3','2']⟩),
  (['H','E','A','R','D','_','I','S','L','A','N','D','_','A','N','D','_','M','C','D','O','N','A','L','D','_','I','S','L','A','N','D','S'], ⟨['H','M'], ['H','M','D'], ['3','3','4']⟩),
  (['H','O','L','Y','_','S','E','E'], ⟨['V','A'], ['V','A','T'], ['3','3','6']⟩),
  (['H','O','N','D','U','R','A','S'], ⟨['H','N'], ['H','N','D'], ['3','4','0']⟩),
  (['H','O','N','G','_','K','O','N','G'], ⟨['H','K'], ['H','K','G'], ['3','4','4']⟩),
  (['H','U','N','G','A','R','Y'], ⟨['H','U'], ['H','U','N'], ['3','4','8']⟩),
  (['I','C','E','L','A','N','D'], ⟨['I','S'], ['I','S','L'], ['3','5','2']⟩),
  (['I','N','D','I','A'], ⟨['I','N'], ['I','N','D'], ['3','5','6']⟩),
  (['I','N','D','O','N','E','S','I','A'], ⟨['I','D'], ['I','D','N'], ['3','6','0']⟩),
  (['I','R','A','N'], ⟨['I','R'], ['I','R','N'], ['3','6','4']⟩),
  (['I','R','A','Q'], ⟨['I','Q'], ['I','R','Q'], ['3','6','8']⟩),
  (['I','R','E','L','A','N','D'], ⟨['I','E'], ['I','R','L'], ['3','7','2']⟩),
  (['I','S','L','E','_','O','F','_','M','A','N'], ⟨['I','M'], ['I','M','N'], ['8','3','3']⟩),
  (['I','S','R','A','E','L'], ⟨['I','L'], ['I','S','R'], ['3','7','6']⟩),
  (['I','T','A','L','Y'], ⟨['I','T'], ['I','T','A'], ['3','8','0']⟩),
  (['J','A','M','A','I','C','A'], ⟨['J','M'], ['J','A','M'], ['3','8','8']⟩),
  (['J','A','P','A','N'], ⟨['J','P'], ['J','P','N'], ['3','9','2']⟩),
  (['J','E','R','S','E','Y'], ⟨['J','E'], ['J','E','Y'], ['8','3','2']⟩),
  (['J','O','R','D','A','N'], ⟨['J','O'], ['J','O','R'], ['4','0','0']⟩),
  (['K','A','Z','A','K','H','S','T','A','N'], ⟨['K','Z'], ['K','A','Z'], ['3','9','8']⟩),
  (['K','E','N','Y','A'], ⟨['K','E'], ['K','E','N'], ['4','0','4']⟩),
  (['K','I','R','I','B','A','T','I'], ⟨['K','I'], ['K','I','R'], ['2','9','6']⟩),
  (['K','O','R','E','A','_','D','E','M','O','C','R','A','T','I','C','_','P','E','O','P','L','E','_','R','E','P','U','B','L','I','C'], ⟨['K','P'], ['P','R','K'], ['4','0','8']⟩),
  (['K','O','R','E','A','_','R','E','P','U','B','L','I','C'], ⟨['K','R'], ['K','O','R'], ['4','1','0']⟩),
  (['K','U','W','A','I','T'], ⟨['K','W'], ['K','W','T'], ['4','1','4']⟩),
  (['K','Y','R','G','Y','Z','S','T','A','N'], ⟨['K','G'], ['K','G','Z'], ['4','1','7']⟩),
  (['L','A','O','_','P','E','O','P','L','E','_','D','E','M','O','C','R','A','T','I','C','_','R','E','P','U','B','L','I','C'], ⟨['L','A'], ['L','A','O'], ['4','1','8']⟩),
  (['L','A','T','V','I','A'], ⟨['L','V'], ['L','V','A'], ['4','2','8']⟩),
  (['L','E','B','A','N','O','N'], ⟨['L','B'], ['L','B','N'], ['4','2','2']⟩),
  (['L','E','S','O','T','H','O'], ⟨['L','S'], ['L','S','O'], ['4','2','6']⟩),
  (['L','I','B','E','R','I','A'], ⟨['L','R'], ['L','B','R'], ['4','3','0']⟩),
  (['L','I','B','Y','A'], ⟨['L','Y'], ['L','B','Y'], ['4','3','4']⟩),
  (['L','I','E','C','H','T','E','N','S','T','E','I','N'], ⟨['L','I'], ['L','I','E'], ['4','3','8']⟩),
  (['L','I','T','H','U','A','N','I','A'], ⟨['L','T'], ['L','T','U'], ['4','4','0']⟩),
  (['L','U','X','E','M','B','O','U','R','G'], ⟨['L','U'], ['L','U','X'], ['4','4','2']⟩),
  (['M','A','C','A','O'], ⟨['M','O'], ['M','A','C'], ['4','4','6']⟩),
  (['M','A','D','A','G','A','S','C','A','R'], ⟨['M','G'], ['M','D','G'], ['4','5','0']⟩),
  (['M','A','L','A','W','I'], ⟨['M','W'], ['M','W','I'], ['4','5','4']⟩),
  (['M','A','L','A','Y','S','I','A'], ⟨['M','Y'], ['M','Y','S'], ['4','5','8']⟩),
  (['M','A','L','D','I','V','E','S'], ⟨['M','V'], ['M','D','V'], ['4','6','2']⟩),
  (['M','A','L','I'], ⟨['M','L'], ['M','L','I'], ['4','6','6']⟩),
  (['M','A','L','T','A'], ⟨['M','T'], ['M','L','T'], ['4','7','0']⟩),
  (['M','A','R','S','H','A','L','L','_','I','S','L','A','N','D','S'], ⟨['M','H'], ['M','H','L'], ['5','8','4']⟩),
  (['M','A','R','T','I','N','I','Q','U','E'], ⟨['M','Q'], ['M','T','Q'], ['4','7','4']⟩),
  (['M','A','U','R','I','T','A','N','I','A'], ⟨['M','R'], ['M','R','T'], ['4','7','8']⟩),
  (['M','A','U','R','I','T','I','U','S'], ⟨['M','U'], ['M','U','S'], ['4','8','0']⟩),
  (['M','A','Y','O','T','T','E'], ⟨['Y','T'], ['M','Y','T'], ['1','7','5']⟩),
  (['M','E','X','I','C','O'], ⟨['M','X'], ['M','E','X'], ['4','8','4']⟩),
  (['M','I','C','R','O','N','E','S','I','A'], ⟨['F','M'], ['F','S','M'], ['5','8','3']⟩),
  (['M','O','L','D','O','V','A'], ⟨['M','D'], ['M','D','A'], ['4','9','8']⟩),
  (['M','O','N','A','C','O'], ⟨['M','C'], ['M','C','O'], ['4','9','2']⟩),
  (['M','O','N','G','O','L','I','A'], ⟨['M','N'], ['M','N','G'], ['4','9','6']⟩),
  (['M','O','N','T','E','N','E','G','R','O'], ⟨['M','E'], ['M','N','E'], ['4','9','9']⟩),
  (['M','O','N','T','S','E','R','R','A','T'], ⟨['M','S'], ['M','S','R'], ['5','0','0']⟩),
  (['M','O','R','O','C','C','O'], ⟨['M','A'], ['M','A','R'], ['5','0','4']⟩),
  (['M','O','Z','A','M','B','I','Q','U','E'], ⟨['M','Z'], ['M','O','Z'], ['5','0','8']⟩),
  (['M','Y','A','N','M','A','R'], ⟨['M','M'], ['M','M','R'], ['1','0','4']⟩),
  (['N','A','M','I','B','I','A'], ⟨['N','A'], ['N','A','M'], ['5','1','6']⟩),
  (['N','A','U','R','U'], ⟨['N','R'], ['N','R','U'], ['5','2','0']⟩),
  (['N','E','P','A','L'], ⟨['N','P'], ['N','P','L'], ['5','2','4']⟩),
  (['N','E','T','H','E','R','L','A','N','D','S'], ⟨['N','L'], ['N','L','D'], ['5','2','8']⟩),
  (['N','E','W','_','C','A','L','E','D','O','N','I','A'], ⟨['N','C'], ['N','C','L'], ['5','4','0']⟩),
  (['N','E','W','_','Z','E','A','L','A','N','D'], ⟨['N','Z'], ['N','Z','L'], ['5','5','4']⟩),
  (['N','I','C','A','R','A','G','U','A'], ⟨['N','I'], ['N','I','C'], ['5','5','8']⟩),
  (['N','I','G','E','R'], ⟨['N','E'], ['N','E','R'], ['5','6','2']⟩),
  (['N','I','G','E','R','I','A'], ⟨['N','G'], ['N','G','A'], ['5','6','6']⟩),
  (['N','I','U','E'], ⟨['N','U'], ['N','I','U'], ['5','7','0']⟩),
  (['N','O','R','F','O','L','K','_','I','S','L','A','N','D'], ⟨['N','F'], ['N','F','K'], ['5','7','4']⟩),
  (['N','O','R','T','H','_','M','A','C','E','D','O','N','I','A'], ⟨['M','K'], ['M','K','D'], ['8','0','7']⟩),
  (['N','O','R','T','H','E','R','N','_','M','A','R','I','A','N','A','_','I','S','L','A','N','D','S'], ⟨['M','P'], ['M','N','P'], ['5','8','0']⟩),
  (['N','O','R','W','A','Y'], ⟨['N','O'], ['N','O','R'], ['5','7','8']⟩),
  (['O','M','A','N'], ⟨['O','M'], ['O','M','N'], ['5','1','2']⟩),
  (['P','A','K','I','S','T','A','N'], ⟨['P','K'], ['P','A','K'], ['5','8','6']⟩),
  (['P','A','L','A','U'], ⟨['P','W'], ['P','L','W'], ['5','8','5']⟩),
  (['P','A','L','E','S','T','I','N','E'], ⟨['P','S'], ['P','S','E'], ['2','7','5']⟩),
  (['P','A','N','A','M','A'], ⟨['P','A'], ['P','A','N'], ['5','9','1']⟩),
  (['P','A','P','U','A','_','N','E','W','_','G','U','I','N','E','A'], ⟨['P','G'], ['P','N','G'], ['5','9','8']⟩),
  (['P','A','R','A','G','U','A','Y'], ⟨['P','Y'], ['P','R','Y'], ['6','0','0']⟩),
  (['P','E','R','U'], ⟨['P','E'], ['P','E','R'], ['6','0','4']⟩),
  (['P','H','I','L','I','P','P','I','N','E','S'], ⟨['P','H'], ['P','H','L'], ['6','0','8']⟩),
  (['P','I','T','C','A','I','R','N'], ⟨['P','N'], ['P','C','N'], ['6','1','2']⟩),
  (['P','O','L','A','N','D'], ⟨['P','L'], ['P','O','L'], ['6','1','6']⟩),
  (['P','O','R','T','U','G','A','L'], ⟨['P','T'], ['P','R','T'], ['6','2','0']⟩),
  (['P','U','E','R','T','O','_','R','I','C','O'], ⟨['P','R'], ['P','R','I'], ['6','3','0']⟩),
  (['Q','A','T','A','R'], ⟨['Q','A'], ['Q','A','T'], ['6','3','4']⟩),
  (['R','É','U','N','I','O','N'], ⟨['R','E'], ['R','E','U'], ['6','3','8']⟩),
  (['R','O','M','A','N','I','A'], ⟨['R','O'], ['R','O','U'], ['6','4','2']⟩),
  (['R','U','S','S','I','A','N','_','F','E','D','E','R','A','T','I','O','N'], ⟨['R','U'], ['R','U','S'], ['6','4','3']⟩),
  (['R','W','A','N','D','A'], ⟨['R','W'], ['R','W','A'], ['6','4','6']⟩),
  (['S','A','I','N','T','_','B','A','R','T','H','E','L','E','M','Y'], ⟨['B','L'], ['B','L','M'], ['6','5','2']⟩),
  (['S','A','I','N','T','_','H','E','L','E','N','A','_','A','S','C','E','N','S','I','O','N','_','A','N','D','_','T','R','I','S','T','A','N','_','D','A','_','C','U','N','H','A'], ⟨['S','H'], ['S','H','N'], ['6','5','4']⟩),
  (['S','A','I','N','T','_','K','I','T','T','S','_','A','N','D','_','N','E','V','I','S'], ⟨['K','N'], ['K','N','A'], ['6','5','9']⟩),
  (['S','A','I','N','T','_','L','U','C','I','A'], ⟨['L','C'], ['L','C','A'], ['6','6','2']⟩),
  (['S','A','I','N','T','_','M','A','R','T','I','N'], ⟨['M','F'], ['M','A','F'], ['6','6','3']⟩),
  (['S','A','I','N','T','_','P','I','E','R','R','E','_','A','N','D','_','M','I','Q','U','E','L','O','N'], ⟨['P','M'], ['S','P','M'], ['6','6','6']⟩),
  (['S','A','I','N','T','_','V','I','N','C','E','N','T','_','A','N','D','_','T','H','E','_','G','R','E','N','A','D','I','N','E','S'], ⟨['V','C'], ['V','C','T'], ['6','7','0']⟩),
  (['S','A','M','O','A'], ⟨['W','S'], ['W','S','M'], ['8','8','2']⟩),
  (['S','A','N','_','M','A','R','I','N','O'], ⟨['S','M'], ['S','M','R'], ['6','7','4']⟩),
  (['S','A','O','_','T','O','M','E','_','A','N','D','_','P','R','I','N','C','I','P','E'], ⟨['S','T'], ['S','T','P'], ['6','7','8']⟩),
  (['S','A','U','D','I','_','A','R','A','B','I','A'], ⟨['S','A'], ['S','A','U'], ['6','8','2']⟩),
  (['S','E','N','E','G','A','L'], ⟨['S','N'], ['S','E','N'], ['6','8','6']⟩),
  (['S','E','R','B','I','A'], ⟨['R','S'], ['S','R','B'], ['6','8','8']⟩),
  (['S','E','Y','C','H','E','L','L','E','S'], ⟨['S','C'], ['S','Y','C'], ['6','9','0']⟩),
  (['S','I','E','R','R','A','_','L','E','O','N','E'], ⟨['S','L'], ['S','L','E'], ['6','9','4']⟩),
  (['S','I','N','G','A','P','O','R','E'], ⟨['S','G'], ['S','G','P'], ['7','0','2']⟩),
  (['S','I','N','T','_','M','A','A','R','T','E','N'], ⟨['S','X'], ['S','X','M'], ['5','3','4']⟩),
  (['S','L','O','V','A','K','I','A'], ⟨['S','K'], ['S','V','K'], ['7','0','3']⟩),
  (['S','L','O','V','E','N','I','A'], ⟨['S','I'], ['S','V','N'], ['7','0','5']⟩),
  (['S','O','L','O','M','O','N','_','I','S','L','A','N','D','S'], ⟨['S','B'], ['S','L','B'], ['0','9','0']⟩),
  (['S','O','M','A','L','I','A'], ⟨['S','O'], ['S','O','M'], ['7','0','6']⟩),
  (['S','O','U','T','H','_','A','F','R','I','C','A'], ⟨['Z','A'], ['Z','A','F'], ['7','1','0']⟩),
  (['S','O','U','T','H','_','G','E','O','R','G','I','A','_','A','N','D','_','T','H','E','_','S','O','U','T','H','_','S','A','N','D','W','I','C','H','_','I','S','L','A','N','D','S'], ⟨['G','S'], ['S','G','S'], ['2','3','9']⟩),
  (['S','O','U','T','H','_','S','U','D','A','N'], ⟨['S','S'], ['S','S','D'], ['7','2','8']⟩),
  (['S','P','A','I','N'], ⟨['E','S'], ['E','S','P'], ['7','2','4']⟩),
  (['S','R','I','_','L','A','N','K','A'], ⟨['L','K'], ['L','K','A'], ['1','4','4']⟩),
  (['S','U','D','A','N'], ⟨['S','D'], ['S','D','N'], ['7','2','9']⟩),
  (['S','U','R','I','N','A','M','E'], ⟨['S','R'], ['S','U','R'], ['7','4','0']⟩),
  (['S','V','A','L','B','A','R','D','_','A','N','D','_','J','A','N','_','M','A','Y','E','N'], ⟨['S','J'], ['S','J','M'], ['7','4','4']⟩),
  (['S','W','E','D','E','N'], ⟨['S','E'], ['S','W','E'], ['7','5','2']⟩),
  (['S','W','I','T','Z','E','R','L','A','N','D'], ⟨['C','H'], ['C','H','E'], ['7','5','6']⟩),
  (['S','Y','R','I','A','N','_','A','R','A','B','_','R','E','P','U','B','L','I','C'], ⟨['S','Y'], ['S','Y','R'], ['7','6','0']⟩),
  (['T','A','I','W','A','N'], ⟨['T','W'], ['T','W','N'], ['1','5','8']⟩),
  (['T','A','J','I','K','I','S','T','A','N'], ⟨['T','J'], ['T','J','K'], ['7','6','2']⟩),
  (['T','A','N','Z','A','N','I','A'], ⟨['T','Z'], ['T','Z','A'], ['8','3','4']⟩),
  (['T','H','A','I','L','A','N','D'], ⟨['T','H'], ['T','H','A'], ['7','6','4']⟩),
  (['T','I','M','O','R','_','L','E','S','T','E'], ⟨['T','L'], ['T','L','S'], ['6','2','6']⟩),
  (['T','O','G','O'], ⟨['T','G'], ['T','G','O'], ['7','6','8']⟩),
  (['T','O','K','E','L','A','U'], ⟨['T','K'], ['T','K','L'], ['7','7','2']⟩),
  (['T','O','N','G','A'], ⟨['T','O'], ['T','O','N'], ['7','7','6']⟩),
  (['T','R','I','N','I','D','A','D','_','A','N','D','_','T','O','B','A','G','O'], ⟨['T','T'], ['T','T','O'], ['7','8','0']⟩),
  (['T','U','N','I','S','I','A'], ⟨['T','N'], ['T','U','N'], ['7','8','8']⟩),
  (['T','U','R','K','E','Y'], ⟨['T','R'], ['T','U','R'], ['7','9','2']⟩),
  (['T','U','R','K','M','E','N','I','S','T','A','N'], ⟨['T','M'], ['T','K','M'], ['7','9','5']⟩),
  (['T','U','R','K','S','_','A','N','D','_','C','A','I','C','O','S','_','I','S','L','A','N','D','S'], ⟨['T','C'], ['T','C','A'], ['7','9','6']⟩),
  (['T','U','V','A','L','U'], ⟨['T','V'], ['T','U','V'], ['7','9','8']⟩),
  (['U','G','A','N','D','A'], ⟨['U','G'], ['U','G','A'], ['8','0','0']⟩),
  (['U','K','R','A','I','N','E'], ⟨['U','A'], ['U','K','R'], ['8','0','4']⟩),
  (['U','N','I','T','E','D','_','A','R','A','B','_','E','M','I','R','A','T','E','S'], ⟨['A','E'], ['A','R','E'], ['7','8','4']⟩),
  (['U','N','I','T','E','D','_','K','I','N','G','D','O','M','_','O','F','_','G','R','E','A','T','_','B','R','I','T','A','I','N','_','A','N','D','_','N','O','R','T','H','E','R','N','_','I','R','E','L','A','N','D'], ⟨['G','B'], ['G','B','R'], ['8','2','6']⟩),
  (['U','N','I','T','E','D','_','S','T','A','T','E','S','_','O','F','_','A','M','E','R','I','C','A'], ⟨['U','S'], ['U','S','A'], ['8','4','0']⟩),
  (['U','N','I','T','E','D','_','S','T','A','T','E','S','_','M','I','N','O','R','_','O','U','T','L','Y','I','N','G','_','I','S','L','A','N','D','S'], ⟨['U','M'], ['U','M','I'], ['5','8','1']⟩),
  (['U','R','U','G','U','A','Y'], ⟨['U','Y'], ['U','R','Y'], ['8','5','8']⟩),
  (['U','Z','B','E','K','I','S','T','A','N'], ⟨['U','Z'], ['U','Z','B'], ['8','6','0']⟩),
  (['V','A','N','U','A','T','U'], ⟨['V','U'], ['V','U','T'], ['5','4','8']⟩),
  (['V','E','N','E','Z','U','E','L','A'], ⟨['V','E'], ['V','E','N'], ['8','6','2']⟩),
  (['V','I','E','T','N','A','M'], ⟨['V','N'], ['V','N','M'], ['7','0','4']⟩),
  (['V','I','R','G','I','N','_','I','S','L','A','N','D','S','_','B','R','I','T','I','S','H'], ⟨['V','G'], ['V','G','B'], ['0','9','2']⟩),
  (['V','I','R','G','I','N','_','I','S','L','A','N','D','S','_','U','S'], ⟨['V','I'], ['V','I','R'], ['8','5','0']⟩),
  (['W','A','L','L','I','S','_','A','N','D','_','F','U','T','U','N','A'], ⟨['W','F'], ['W','L','F'], ['8','7','6']⟩),
  (['W','E','S','T','E','R','N','_','S','A','H','A','R','A'], ⟨['E','H'], ['E','S','H'], ['7','3','2']⟩),
  (['Y','E','M','E','N'], ⟨['Y','E'], ['Y','E','M'], ['8','8','7']⟩),
  (['Z','A','M','B','I','A'], ⟨['Z','M'], ['Z','M','B'], ['8','9','4']⟩),
  (['Z','I','M','B','A','B','W','E'], ⟨['Z','W'], ['Z','W','E'], ['7','1','6']⟩)]

set_option maxRecDepth 4000 in
theorem countryTable_eq : countryTable = countryChars.map CountryChars.entry := (rfl)

/-- The arms of `from_alpha_2` (iso_3166.rs 53-301): the literal matched and the identifier of the
constant returned. -/
def alpha2Arms : List (String × String) := [
  ("AF", "AFGHANISTAN"),
  ("AX", "ÅLAND_ISLANDS"),
  ("AL", "ALBANIA"),
  ("DZ", "ALGERIA"),
  ("AS", "AMERICAN_SAMOA"),
  ("AD", "ANDORRA"),
  ("AO", "ANGOLA"),
  ("AI", "ANGUILLA"),
  ("AQ", "ANTARCTICA"),
  ("AG", "ANTIGUA_AND_BARBUDA"),
  ("AR", "ARGENTINA"),
  ("AM", "ARMENIA"),
  ("AW", "ARUBA"),
  ("AU", "AUSTRALIA"),
  ("AT", "AUSTRIA"),
  ("AZ", "AZERBAIJAN"),
  ("BS", "BAHAMAS"),
  ("BH", "BAHRAIN"),
  ("BD", "BANGLADESH"),
  ("BB", "BARBADOS"),
  ("BY", "BELARUS"),
  ("BE", "BELGIUM"),
  ("BZ", "BELIZE"),
  ("BJ", "BENIN"),
  ("BM", "BERMUDA"),
  ("BT", "BHUTAN"),
  ("BO", "BOLIVIA"),
  ("BQ", "BONAIRE_SINT_EUSTATIUS_AND_SABA"),
  ("BA", "BOSNIA_AND_HERZEGOVINA"),
  ("BW", "BOTSWANA"),
  ("BV", "BOUVET_ISLAND"),
  ("BR", "BRAZIL"),
  ("IO", "BRITISH_INDIAN_OCEAN_TERRITORY"),
  ("BN", "BRUNEI_DARUSSALAM"),
  ("BG", "BULGARIA"),
  ("BF", "BURKINA_FASO"),
  ("BI", "BURUNDI"),
  ("CV", "CABO_VERDE"),
  ("KH", "CAMBODIA"),
  ("CM", "CAMEROON"),
  ("CA", "CANADA"),
  ("KY", "CAYMAN_ISLANDS"),
  ("CF", "CENTRAL_AFRICAN_REPUBLIC"),
  ("TD", "CHAD"),
  ("CL", "CHILE"),
  ("CN", "CHINA"),
  ("CX", "CHRISTMANS_ISLAND"),
  ("CC", "COCOS_ISLANDS"),
  ("CO", "COLOMBIA"),
  ("KM", "COMOROS"),
  ("CG", "CONGO"),
  ("CD", "CONGO_DEMOCRATIC_REPUBLIC"),
  ("CK", "COOK_ISLANDS"),
  ("CR", "COSTA_RICA"),
  ("CI", "CÔTE_DIVOIRE"),
  ("HR", "CROATIA"),
  ("CU", "CUBA"),
  ("CW", "CURAÇAO"),
  ("CY", "CYPRUS"),
  ("CZ", "CZECH_REPUBLIC"),
  ("DK", "DENMARK"),
  ("DJ", "DJIBOUTI"),
  ("DM", "DOMINICA"),
  ("DO", "DOMINICAN_REPUBLIC"),
  ("EC", "ECUADOR"),
  ("EG", "EGYPT"),
  ("SV", "EL_SALVADOR"),
  ("GQ", "EQUATORIAL_GUINEA"),
  ("ER", "ERITREA"),
  ("EE", "ESTONIA"),
  ("SZ", "ESWATINI"),
  ("ET", "ETHIOPIA"),
  ("FK", "FALKLAND_ISLANDS"),
  ("FO", "FAROE_ISLANDS"),
  ("FJ", "FIJI"),
  ("FI", "FINLAND"),
  ("FR", "FRANCE"),
  ("GF", "FRENCH_GUINEA"),
  ("PF", "FRENCH_POLYNESIA"),
  ("TF", "FRENCH_SOUTHERN_TERRITORIES"),
  ("GA", "GABON"),
  ("GM", "GAMBIA"),
  ("GE", "GEORGIA"),
  ("DE", "GERMANY"),
  ("GH", "GHANA"),
  ("GI", "GIBRALTAR"),
  ("GR", "GREECE"),
  ("GL", "GREENLAND"),
  ("GD", "GRENADA"),
  ("GP", "GUADELOUPE"),
  ("GU", "GUAM"),
  ("GT", "GUATEMALA"),
  ("GG", "GUERNSEY"),
  ("GN", "GUINEA"),
  ("GW", "GUINEA_BISSAU"),
  ("GY", "GUYANA"),
  ("HT", "HAITI"),
  ("HM", "HEARD_ISLAND_AND_MCDONALD_ISLANDS"),
  ("VA", "HOLY_SEE"),
  ("HN", "HONDURAS"),
  ("HK", "HONG_KONG"),
  ("HU", "HUNGARY"),
  ("IS", "ICELAND"),
  ("IN", "INDIA"),
  ("ID", "INDONESIA"),
  ("IR", "IRAN"),
  ("IQ", "IRAQ"),
  ("IE", "IRELAND"),
  ("IM", "ISLE_OF_MAN"),
  ("IL", "ISRAEL"),
  ("IT", "ITALY"),
  ("JM", "JAMAICA"),
  ("JP", "JAPAN"),
  ("JE", "JERSEY"),
  ("JO", "JORDAN"),
  ("KZ", "KAZAKHSTAN"),
  ("KE", "KENYA"),
  ("KI", "KIRIBATI"),
  ("KP", "KOREA_DEMOCRATIC_PEOPLE_REPUBLIC"),
  ("KR", "KOREA_REPUBLIC"),
  ("KW", "KUWAIT"),
  ("KG", "KYRGYZSTAN"),
  ("LA", "LAO_PEOPLE_DEMOCRATIC_REPUBLIC"),
  ("LV", "LATVIA"),
  ("LB", "LEBANON"),
  ("LS", "LESOTHO"),
  ("LR", "LIBERIA"),
  ("LY", "LIBYA"),
  ("LI", "LIECHTENSTEIN"),
  ("LT", "LITHUANIA"),
  ("LU", "LUXEMBOURG"),
  ("MO", "MACAO"),
  ("MG", "MADAGASCAR"),
  ("MW", "MALAWI"),
  ("MY", "MALAYSIA"),
  ("MV", "MALDIVES"),
  ("ML", "MALI"),
  ("MT", "MALTA"),
  ("MH", "MARSHALL_ISLANDS"),
  ("MQ", "MARTINIQUE"),
  ("MR", "MAURITANIA"),
  ("MU", "MAURITIUS"),
  ("YT", "MAYOTTE"),
  ("MX", "MEXICO"),
  ("FM", "MICRONESIA"),
  ("MD", "MOLDOVA"),
  ("MC", "MONACO"),
  ("MN", "MONGOLIA"),
  ("ME", "MONTENEGRO"),
  ("MS", "MONTSERRAT"),
  ("MA", "MOROCCO"),
  ("MZ", "MOZAMBIQUE"),
  ("MM", "MYANMAR"),
  ("NA", "NAMIBIA"),
  ("NR", "NAURU"),
  ("NP", "NEPAL"),
  ("NL", "NETHERLANDS"),
  ("NC", "NEW_CALEDONIA"),
  ("NZ", "NEW_ZEALAND"),
  ("NI", "NICARAGUA"),
  ("NE", "NIGER"),
  ("NG", "NIGERIA"),
  ("NU", "NIUE"),
  ("NF", "NORFOLK_ISLAND"),
  ("MK", "NORTH_MACEDONIA"),
  ("MP", "NORTHERN_MARIANA_ISLANDS"),
  ("NO", "NORWAY"),
  ("OM", "OMAN"),
  ("PK", "PAKISTAN"),
  ("PW", "PALAU"),
  ("PS", "PALESTINE"),
  ("PA", "PANAMA"),
  ("PG", "PAPUA_NEW_GUINEA"),
  ("PY", "PARAGUAY"),
  ("PE", "PERU"),
  ("PH", "PHILIPPINES"),
  ("PN", "PITCAIRN"),
  ("PL", "POLAND"),
  ("PT", "PORTUGAL"),
  ("PR", "PUERTO_RICO"),
  ("QA", "QATAR"),
  ("RE", "RÉUNION"),
  ("RO", "ROMANIA"),
  ("RU", "RUSSIAN_FEDERATION"),
  ("RW", "RWANDA"),
  ("BL", "SAINT_BARTHELEMY"),
  ("SH", "SAINT_HELENA_ASCENSION_AND_TRISTAN_DA_CUNHA"),
  ("KN", "SAINT_KITTS_AND_NEVIS"),
  ("LC", "SAINT_LUCIA"),
  ("MF", "SAINT_MARTIN"),
  ("PM", "SAINT_PIERRE_AND_MIQUELON"),
  ("VC", "SAINT_VINCENT_AND_THE_GRENADINES"),
  ("WS", "SAMOA"),
  ("SM", "SAN_MARINO"),
  ("ST", "SAO_TOME_AND_PRINCIPE"),
  ("SA", "SAUDI_ARABIA"),
  ("SN", "SENEGAL"),
  ("RS", "SERBIA"),
  ("SC", "SEYCHELLES"),
  ("SL", "SIERRA_LEONE"),
  ("SG", "SINGAPORE"),
  ("SX", "SINT_MAARTEN"),
  ("SK", "SLOVAKIA"),
  ("SI", "SLOVENIA"),
  ("SB", "SOLOMON_ISLANDS"),
  ("SO", "SOMALIA"),
  ("ZA", "SOUTH_AFRICA"),
  ("GS", "SOUTH_GEORGIA_AND_THE_SOUTH_SANDWICH_ISLANDS"),
  ("SS", "SOUTH_SUDAN"),
  ("ES", "SPAIN"),
  ("LK", "SRI_LANKA"),
  ("SD", "SUDAN"),
  ("SR", "SURINAME"),
  ("SJ", "SVALBARD_AND_JAN_MAYEN"),
  ("SE", "SWEDEN"),
  ("CH", "SWITZERLAND"),
  ("SY", "SYRIAN_ARAB_REPUBLIC"),
  ("TW", "TAIWAN"),
  ("TJ", "TAJIKISTAN"),
  ("TZ", "TANZANIA"),
  ("TH", "THAILAND"),
  ("TL", "TIMOR_LESTE"),
  ("TG", "TOGO"),
  ("TK", "TOKELAU"),
  ("TO", "TONGA"),
  ("TT", "TRINIDAD_AND_TOBAGO"),
  ("TN", "TUNISIA"),
  ("TR", "TURKEY"),
  ("TM", "TURKMENISTAN"),
  ("TC", "TURKS_AND_CAICOS_ISLANDS"),
  ("TV", "TUVALU"),
  ("UG", "UGANDA"),
  ("UA", "UKRAINE"),
  ("AE", "UNITED_ARAB_EMIRATES"),
  ("GB", "UNITED_KINGDOM_OF_GREAT_BRITAIN_AND_NORTHERN_IRELAND"),
  ("US", "UNITED_STATES_OF_AMERICA"),
  ("UM", "UNITED_STATES_MINOR_OUTLYING_ISLANDS"),
  ("UY", "URUGUAY"),
  ("UZ", "UZBEKISTAN"),
  ("VU", "VANUATU"),
  ("VE", "VENEZUELA"),
  ("VN", "VIETNAM"),
  ("VG", "VIRGIN_ISLANDS_BRITISH"),
  ("VI", "VIRGIN_ISLANDS_US"),
  ("WF", "WALLIS_AND_FUTUNA"),
  ("EH", "WESTERN_SAHARA"),
  ("YE", "YEMEN"),
  ("ZM", "ZAMBIA"),
  ("ZW", "ZIMBABWE")]

/-- The same arms with their strings spelt out. -/
def alpha2ArmChars : List (List Char × List Char) := [
  (['A','F'], ['A','F','G','H','A','N','I','S','T','A','N']),
  (['A','X'], ['Å','L','A','N','D','_','I','S','L','A','N','D','S']),
  (['A','L'], ['A','L','B','A','N','I','A']),
  (['D','Z'], ['A','L','G','E','R','I','A']),
  (['A','S'], ['A','M','E','R','I','C','A','N','_','S','A','M','O','A']),
  (['A','D'], ['A','N','D','O','R','R','A']),
  (['A','O'], ['A','N','G','O','L','A']),
  (['A','I'], ['A','N','G','U','I','L','L','A']),
  (['A','Q'], ['A','N','T','A','R','C','T','I','C','A']),
  (['A','G'], ['A','N','T','I','G','U','A','_','A','N','D','_','B','A','R','B','U','D','A']),
  (['A','R'], ['A','R','G','E','N','T','I','N','A']),
  (['A','M'], ['A','R','M','E','N','I','A']),
  (['A','W'], ['A','R','U','B','A']),
  (['A','U'], ['A','U','S','T','R','A','L','I','A']),
  (['A','T'], ['A','U','S','T','R','I','A']),
  (['A','Z'], ['A','Z','E','R','B','A','I','J','A','N']),
  (['B','S'], ['B','A','H','A','M','A','S']),
  (['B','H'], ['B','A','H','R','A','I','N']),
  (['B','D'], ['B','A','N','G','L','A','D','E','S','H']),
  (['B','B'], ['B','A','R','B','A','D','O','S']),
  (['B','Y'], ['B','E','L','A','R','U','S']),
  (['B','E'], ['B','E','L','G','I','U','M']),
  (['B','Z'], ['B','E','L','I','Z','E']),
  (['B','J'], ['B','E','N','I','N']),
  (['B','M'], ['B','E','R','M','U','D','A']),
  (['B','T'], ['B','H','U','T','A','N']),
  (['B','O'], ['B','O','L','I','V','I','A']),
  (['B','Q'], ['B','O','N','A','I','R','E','_','S','I','N','T','_','E','U','S','T','A','T','I','U','S','_','A','N','D','_','S','A','B','A']),
  (['B','A'], ['B','O','S','N','I','A','_','A','N','D','_','H','E','R','Z','E','G','O','V','I','N','A']),
  (['B','W'], ['B','O','T','S','W','A','N','A']),
  (['B','V'], ['B','O','U','V','E','T','_','I','S','L','A','N','D']),
  (['B','R'], ['B','R','A','Z','I','L']),
  (['I','O'], ['B','R','I','T','I','S','H','_','I','N','D','I','A','N','_','O','C','E','A','N','_','T','E','R','R','I','T','O','R','Y']),
  (['B','N'], ['B','R','U','N','E','I','_','D','A','R','U','S','S','A','L','A','M']),
  (['B','G'], ['B','U','L','G','A','R','I','A']),
  (['B','F'], ['B','U','R','K','I','N','A','_','F','A','S','O']),
  (['B','I'], ['B','U','R','U','N','D','I']),
  (['C','V'], ['C','A','B','O','_','V','E','R','D','E']),
  (['K','H'], ['C','A','M','B','O','D','I','A']),
  (['C','M'], ['C','A','M','E','R','O','O','N']),
  (['C','A'], ['C','A','N','A','D','A']),
  (['K','Y'], ['C','A','Y','M','A','N','_','I','S','L','A','N','D','S']),
  (['C','F'], ['C','E','N','T','R','A','L','_','A','F','R','I','C','A','N','_','R','E','P','U','B','L','I','C']),
  (['T','D'], ['C','H','A','D']),
  (['C','L'], ['C','H','I','L','E']),
  (['C','N'], ['C','H','I','N','A']),
  (['C','X'], ['C','H','R','I','S','T','M','A','N','S','_','I','S','L','A','N','D']),
  (['C','C'], ['C','O','C','O','S','_','I','S','L','A','N','D','S']),
  (['C','O'], ['C','O','L','O','M','B','I','A']),
  (['K','M'], ['C','O','M','O','R','O','S']),
  (['C','G'], ['C','O','N','G','O']),
  (['C','D'], ['C','O','N','G','O','_','D','E','M','O','C','R','A','T','I','C','_','R','E','P','U','B','L','I','C']),
  (['C','K'], ['C','O','O','K','_','I','S','L','A','N','D','S']),
  (['C','R'], ['C','O','S','T','A','_','R','I','C','A']),
  (['C','I'], ['C','Ô','T','E','_','D','I','V','O','I','R','E']),
  (['H','R'], ['C','R','O','A','T','I','A']),
  (['C','U'], ['C','U','B','A']),
  (['C','W'], ['C','U','R','A','Ç','A','O']),
  (['C','Y'], ['C','Y','P','R','U','S']),
  (['C','Z'], ['C','Z','E','C','H','_','R','E','P','U','B','L','I','C']),
  (['D','K'], ['D','E','N','M','A','R','K']),
  (['D','J'], ['D','J','I','B','O','U','T','I']),
  (['D','M'], ['D','O','M','I','N','I','C','A']),
  (['D','O'], ['D','O','M','I','N','I','C','A','N','_','R','E','P','U','B','L','I','C']),
  (['E','C'], ['E','C','U','A','D','O','R']),
  (['E','G'], ['E','G','Y','P','T']),
  (['S','V'], ['E','L','_','S','A','L','V','A','D','O','R']),
  (['G','Q'], ['E','Q','U','A','T','O','R','I','A','L','_','G','U','I','N','E','A']),
  (['E','R'], ['E','R','I','T','R','E','A']),
  (['E','E'], ['E','S','T','O','N','I','A']),
  (['S','Z'], ['E','S','W','A','T','I','N','I']),
  (['E','T'], ['E','T','H','I','O','P','I','A']),
  (['F','K'], ['F','A','L','K','L','A','N','D','_','I','S','L','A','N','D','S']),
  (['F','O'], ['F','A','R','O','E','_','I','S','L','A','N','D','S']),
  (['F','J'], ['F','I','J','I']),
  (['F','I'], ['F','I','N','L','A','N','D']),
  (['F','R'], ['F','R','A','N','C','E']),
  (['G','F'], ['F','R','E','N','C','H','_','G','U','I','N','E','A']),
  (['P','F'], ['F','R','E','N','C','H','_','P','O','L','Y','N','E','S','I','A']),
  (['T','F'], ['F','R','E','N','C','H','_','S','O','U','T','H','E','R','N','_','T','E','R','R','I','T','O','R','I','E','S']),
  (['G','A'], ['G','A','B','O','N']),
  (['G','M'], ['G','A','M','B','I','A']),
  (['G','E'], ['G','E','O','R','G','I','A']),
  (['D','E'], ['G','E','R','M','A','N','Y']),
  (['G','H'], ['G','H','A','N','A']),
  (['G','I'], ['G','I','B','R','A','L','T','A','R']),
  (['G','R'], ['G','R','E','E','C','E']),
  (['G','L'], ['G','R','E','E','N','L','A','N','D']),
  (['G','D'], ['G','R','E','N','A','D','A']),
  (['G','P'], ['G','U','A','D','E','L','O','U','P','E']),
  (['G','U'], ['G','U','A','M']),
  (['G','T'], ['G','U','A','T','E','M','A','L','A']),
  (['G','G'], ['G','U','E','R','N','S','E','Y']),
  (['G','N'], ['G','U','I','N','E','A']),
  (['G','W'], ['G','U','I','N','E','A','_','B','I','S','S','A','U']),
  (['G','Y'], ['G','U','Y','A','N','A']),
  (['H','T'], ['H','A','I','T','I']),
  (['H','M'], ['H','E','A','R','D','_','I','S','L','A','N','D','_','A','N','D','_','M','C','D','O','N','A','L','D','_','I','S','L','A','N','D','S']),
  (['V','A'], ['H','O','L','Y','_','S','E','E']),
  (['H','N'], ['H','O','N','D','U','R','A','S']),
  (['H','K'], ['H','O','N','G','_','K','O','N','G']),
  (['H','U'], ['H','U','N','G','A','R','Y']),
  (['I','S'], ['I','C','E','L','A','N','D']),
  (['I','N'], ['I','N','D','I','A']),
  (['I','D'], ['I','N','D','O','N','E','S','I','A']),
  (['I','R'], ['I','R','A','N']),
  (['I','Q'], ['I','R','A','Q']),
  (['I','E'], ['I','R','E','L','A','N','D']),
  (['I','M'], ['I','S','L','E','_','O','F','_','M','A','N']),
  (['I','L'], ['I','S','R','A','E','L']),
  (['I','T'], ['I','T','A','L','Y']),
  (['J','M'], ['J','A','M','A','I','C','A']),
  (['J','P'], ['J','A','P','A','N']),
  (['J','E'], ['J','E','R','S','E','Y']),
  (['J','O'], ['J','O','R','D','A','N']),
  (['K','Z'], ['K','A','Z','A','K','H','S','T','A','N']),
  (['K','E'], ['K','E','N','Y','A']),
  (['K','I'], ['K','I','R','I','B','A','T','I']),
  (['K','P'], ['K','O','R','E','A','_','D','E','M','O','C','R','A','T','I','C','_','P','E','O','P','L','E','_','R','E','P','U','B','L','I','C']),
  (['K','R'], ['K','O','R','E','A','_','R','E','P','U','B','L','I','C']),
  (['K','W'], ['K','U','W','A','I','T']),
  (['K','G'], ['K','Y','R','G','Y','Z','S','T','A','N']),
  (['L','A'], ['L','A','O','_','P','E','O','P','L','E','_','D','E','M','O','C','R','A','T','I','C','_','R','E','P','U','B','L','I','C']),
  (['L','V'], ['L','A','T','V','I','A']),
  (['L','B'], ['L','E','B','A','N','O','N']),
  (['L','S'], ['L','E','S','O','T','H','O']),
  (['L','R'], ['L','I','B','E','R','I','A']),
  (['L','Y'], ['L','I','B','Y','A']),
  (['L','I'], ['L','I','E','C','H','T','E','N','S','T','E','I','N']),
  (['L','T'], ['L','I','T','H','U','A','N','I','A']),
  (['L','U'], ['L','U','X','E','M','B','O','U','R','G']),
  (['M','O'], ['M','A','C','A','O']),
  (['M','G'], ['M','A','D','A','G','A','S','C','A','R']),
  (['M','W'], ['M','A','L','A','W','I']),
  (['M','Y'], ['M','A','L','A','Y','S','I','A']),
  (['M','V'], ['M','A','L','D','I','V','E','S']),
  (['M','L'], ['M','A','L','I']),
  (['M','T'], ['M','A','L','T','A']),
  (['M','H'], ['M','A','R','S','H','A','L','L','_','I','S','L','A','N','D','S']),
  (['M','Q'], ['M','A','R','T','I','N','I','Q','U','E']),
  (['M','R'], ['M','A','U','R','I','T','A','N','I','A']),
  (['M','U'], ['M','A','U','R','I','T','I','U','S']),
  (['Y','T'], ['M','A','Y','O','T','T','E']),
  (['M','X'], ['M','E','X','I','C','O']),
  (['F','M'], ['M','I','C','R','O','N','E','S','I','A']),
  (['M','D'], ['M','O','L','D','O','V','A']),
  (['M','C'], ['M','O','N','A','C','O']),
  (['M','N'], ['M','O','N','G','O','L','I','A']),
  (['M','E'], ['M','O','N','T','E','N','E','G','R','O']),
  (['M','S'], ['M','O','N','T','S','E','R','R','A','T']),
  (['M','A'], ['M','O','R','O','C','C','O']),
  (['M','Z'], ['M','O','Z','A','M','B','I','Q','U','E']),
  (['M','M'], ['M','Y','A','N','M','A','R']),
  (['N','A'], ['N','A','M','I','B','I','A']),
  (['N','R'], ['N','A','U','R','U']),
  (['N','P'], ['N','E','P','A','L']),
  (['N','L'], ['N','E','T','H','E','R','L','A','N','D','S']),
  (['N','C'], ['N','E','W','_','C','A','L','E','D','O','N','I','A']),
  (['N','Z'], ['N','E','W','_','Z','E','A','L','A','N','D']),
  (['N','I'], ['N','I','C','A','R','A','G','U','A']),
  (['N','E'], ['N','I','G','E','R']),
  (['N','G'], ['N','I','G','E','R','I','A']),
  (['N','U'], ['N','I','U','E']),
  (['N','F'], ['N','O','R','F','O','L','K','_','I','S','L','A','N','D']),
  (['M','K'], ['N','O','R','T','H','_','M','A','C','E','D','O','N','I','A']),
  (['M','P'], ['N','O','R','T','H','E','R','N','_','M','A','R','I','A','N','A','_','I','S','L','A','N','D','S']),
  (['N','O'], ['N','O','R','W','A','Y']),
  (['O','M'], ['O','M','A','N']),
  (['P','K'], ['P','A','K','I','S','T','A','N']),
  (['P','W'], ['P','A','L','A','U']),
  (['P','S'], ['P','A','L','E','S','T','I','N','E']),
  (['P','A'], ['P','A','N','A','M','A']),
  (['P','G'], ['P','A','P','U','A','_','N','E','W','_','G','U','I','N','E','A']),
  (['P','Y'], ['P','A','R','A','G','U','A','Y']),
  (['P','E'], ['P','E','R','U']),
  (['P','H'], ['P','H','I','L','I','P','P','I','N','E','S']),
  (['P','N'], ['P','I','T','C','A','I','R','N']),
  (['P','L'], ['P','O','L','A','N','D']),
  (['P','T'], ['P','O','R','T','U','G','A','L']),
  (['P','R'], ['P','U','E','R','T','O','_','R','I','C','O']),
  (['Q','A'], ['Q','A','T','A','R']),
  (['R','E'], ['R','É','U','N','I','O','N']),
  (['R','O'], ['R','O','M','A','N','I','A']),
  (['R','U'], ['R','U','S','S','I','A','N','_','F','E','D','E','R','A','T','I','O','N']),
  (['R','W'], ['R','W','A','N','D','A']),
  (['B','L'], ['S','A','I','N','T','_','B','A','R','T','H','E','L','E','M','Y']),
  (['S','H'], ['S','A','I','N','T','_','H','E','L','E','N','A','_','A','S','C','E','N','S','I','O','N','_','A','N','D','_','T','R','I','S','T','A','N','_','D','A','_','C','U','N','H','A']),
  (['K','N'], ['S','A','I','N','T','_','K','I','T','T','S','_','A','N','D','_','N','E','V','I','S']),
  (['L','C'], ['S','A','I','N','T','_','L','U','C','I','A']),
  (['M','F'], ['S','A','I','N','T','_','M','A','R','T','I','N']),
  (['P','M'], ['S','A','I','N','T','_','P','I','E','R','R','E','_','A','N','D','_','M','I','Q','U','E','L','O','N']),
  (['V','C'], ['S','A','I','N','T','_','V','I','N','C','E','N','T','_','A','N','D','_','T','H','E','_','G','R','E','N','A','D','I','N','E','S']),
  (['W','S'], ['S','A','M','O','A']),
  (['S','M'], ['S','A','N','_','M','A','R','I','N','O']),
  (['S','T'], ['S','A','O','_','T','O','M','E','_','A','N','D','_','P','R','I','N','C','I','P','E']),
  (['S','A'], ['S','A','U','D','I','_','A','R','A','B','I','A']),
  (['S','N'], ['S','E','N','E','G','A','L']),
  (['R','S'], ['S','E','R','B','I','A']),
  (['S','C'], ['S','E','Y','C','H','E','L','L','E','S']),
  (['S','L'], ['S','I','E','R','R','A','_','L','E','O','N','E']),
  (['S','G'], ['S','I','N','G','A','P','O','R','E']),
  (['S','X'], ['S','I','N','T','_','M','A','A','R','T','E','N']),
  (['S','K'], ['S','L','O','V','A','K','I','A']),
  (['S','I'], ['S','L','O','V','E','N','I','A']),
  (['S','B'], ['S','O','L','O','M','O','N','_','I','S','L','A','N','D','S']),
  (['S','O'], ['S','O','M','A','L','I','A']),
  (['Z','A'], ['S','O','U','T','H','_','A','F','R','I','C','A']),
  (['G','S'], ['S','O','U','T','H','_','G','E','O','R','G','I','A','_','A','N','D','_','T','H','E','_','S','O','U','T','H','_','S','A','N','D','W','I','C','H','_','I','S','L','A','N','D','S']),
  (['S','S'], ['S','O','U','T','H','_','S','U','D','A','N']),
  (['E','S'], ['S','P','A','I','N']),
  (['L','K'], ['S','R','I','_','L','A','N','K','A']),
  (['S','D'], ['S','U','D','A','N']),
  (['S','R'], ['S','U','R','I','N','A','M','E']),
  (['S','J'], ['S','V','A','L','B','A','R','D','_','A','N','D','_','J','A','N','_','M','A','Y','E','N']),
  (['S','E'], ['S','W','E','D','E','N']),
  (['C','H'], ['S','W','I','T','Z','E','R','L','A','N','D']),
  (['S','Y'], ['S','Y','R','I','A','N','_','A','R','A','B','_','R','E','P','U','B','L','I','C']),
  (['T','W'], ['T','A','I','W','A','N']),
  (['T','J'], ['T','A','J','I','K','I','S','T','A','N']),
  (['T','Z'], ['T','A','N','Z','A','N','I','A']),
  (['T','H'], ['T','H','A','I','L','A','N','D']),
  (['T','L'], ['T','I','M','O','R','_','L','E','S','T','E']),
  (['T','G'], ['T','O','G','O']),
  (['T','K'], ['T','O','K','E','L','A','U']),
  (['T','O'], ['T','O','N','G','A']),
  (['T','T'], ['T','R','I','N','I','D','A','D','_','A','N','D','_','T','O','B','A','G','O']),
  (['T','N'], ['T','U','N','I','S','I','A']),
  (['T','R'], ['T','U','R','K','E','Y']),
  (['T','M'], ['T','U','R','K','M','E','N','I','S','T','A','N']),
  (['T','C'], ['T','U','R','K','S','_','A','N','D','_','C','A','I','C','O','S','_','I','S','L','A','N','D','S']),
  (['T','V'], ['T','U','V','A','L','U']),
  (['U','G'], ['U','G','A','N','D','A']),
  (['U','A'], ['U','K','R','A','I','N','E']),
  (['A','E'], ['U','N','I','T','E','D','_','A','R','A','B','_','E','M','I','R','A','T','E','S']),
  (['G','B'], ['U','N','I','T','E','D','_','K','I','N','G','D','O','M','_','O','F','_','G','R','E','A','T','_','B','R','I','T','A','I','N','_','A','N','D','_','N','O','R','T','H','E','R','N','_','I','R','E','L','A','N','D']),
  (['U','S'], ['U','N','I','T','E','D','_','S','T','A','T','E','S','_','O','F','_','A','M','E','R','I','C','A']),
  (['U','M'], ['U','N','I','T','E','D','_','S','T','A','T','E','S','_','M','I','N','O','R','_','O','U','T','L','Y','I','N','G','_','I','S','L','A','N','D','S']),
  (['U','Y'], ['U','R','U','G','U','A','Y']),
  (['U','Z'], ['U','Z','B','E','K','I','S','T','A','N']),
  (['V','U'], ['V','A','N','U','A','T','U']),
  (['V','E'], ['V','E','N','E','Z','U','E','L','A']),
  (['V','N'], ['V','I','E','T','N','A','M']),
  (['V','G'], ['V','I','R','G','I','N','_','I','S','L','A','N','D','S','_','B','R','I','T','I','S','H']),
  (['V','I'], ['V','I','R','G','I','N','_','I','S','L','A','N','D','S','_','U','S']),
  (['W','F'], ['W','A','L','L','I','S','_','A','N','D','_','F','U','T','U','N','A']),
  (['E','H'], ['W','E','S','T','E','R','N','_','S','A','H','A','R','A']),
  (['Y','E'], ['Y','E','M','E','N']),
  (['Z','M'], ['Z','A','M','B','I','A']),
  (['Z','W'], ['Z','I','M','B','A','B','W','E'])]

set_option maxRecDepth 4000 in
theorem alpha2Arms_eq :
    alpha2Arms = alpha2ArmChars.map fun a => (String.ofList a.1, String.ofList a.2) := (rfl)

end Verif.Iso
