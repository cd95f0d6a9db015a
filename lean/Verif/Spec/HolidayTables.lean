import Verif.Spec.Closings

/-!
# The holidays of the shipped calendars

For every shipped calendar (and market) the list of its holidays, in the vocabulary of `Verif.Spec.Holidays`:
what the comments in `third-parties/calendar/src/*.rs` announce, written as rules about dates and not as
conditions on the numbers of a date.
-/

namespace Qlab.Spec

namespace Holiday

/-- The date itself, or the Monday after it when it falls on a weekend. -/
def orMonday (m d : Nat) : List Holiday := [.on m d, .moved m d [.Sat] 2, .moved m d [.Sun] 1]

/-- The date itself, and the Monday after it when it falls on a Sunday. -/
def sundayToMonday (m d : Nat) : List Holiday := [.on m d, .moved m d [.Sun] 1]

/-- The date itself, the Friday before it when it falls on a Saturday, the Monday after it when it falls on a
Sunday. -/
def nearestWeekday (m d : Nat) : List Holiday := [.on m d, .moved m d [.Sat] (-1), .moved m d [.Sun] 1]

/-- The date itself, and two days later when it falls on a weekend (the day after it is a holiday too). -/
def orTwoDaysLater (m d : Nat) : List Holiday := [.on m d, .moved m d [.Sat, .Sun] 2]

/-- From year `a` to year `b`. -/
def between (a b : Int) (h : Holiday) : Holiday := .since a (.till b h)

end Holiday

open Holiday

namespace Holidays

/-- `argentina.rs`. -/
def argentina : List Holiday := [
  .on 1 1,                               -- New Year's Day
  .easter (-3), .easter (-2),            -- Holy Thursday, Good Friday
  .on 5 1,                               -- Labour Day
  .on 5 25,                              -- May Revolution
  .nth 3 .Mon 6,                         -- Death of General Manuel Belgrano
  .on 7 9,                               -- Independence Day
  .nth 3 .Mon 8,                         -- Death of General José de San Martín
  -- Columbus Day, 12 October, kept on the Monday before (Tuesday, Wednesday) or after (Thursday, Friday)
  .moved 10 12 [.Mon] 0, .moved 10 12 [.Tue] (-1), .moved 10 12 [.Wed] (-2), .moved 10 12 [.Thu] 4,
  .moved 10 12 [.Fri] 3,
  .on 12 8,                              -- Immaculate Conception
  .on 12 24,                             -- Christmas Eve
  .on 12 31, .moved 12 31 [.Sat] (-1)]   -- New Year's Eve (or the Friday before)

/-- `australia.rs`, both markets. -/
def australiaShared : List Holiday :=
  orMonday 1 1                           -- New Year's Day
  ++ orMonday 1 26                       -- Australia Day
  ++ [.easter (-2), .easter 1,           -- Good Friday, Easter Monday
  .on 4 25,                              -- ANZAC Day
  .nth 2 .Mon 6]                         -- Queen's Birthday
  ++ orTwoDaysLater 12 25                -- Christmas
  ++ orTwoDaysLater 12 26                -- Boxing Day
  ++ [.dates 2022 [(9, 22)]]             -- National Day of Mourning

/-- `australia.rs`. -/
def australia : Option AustraliaMarket → List Holiday
  | some .ASX => australiaShared
  | _ => australiaShared ++ [
    .nth 1 .Mon 8,                       -- Bank Holiday
    .nth 1 .Mon 10]                      -- Labour Day

/-- `austria.rs`. -/
def austria : Option AustriaMarket → List Holiday
  | some .Exchange => [
    .on 1 1,                             -- New Year's Day
    .easter (-2), .easter 1,             -- Good Friday, Easter Monday
    .easter 50,                          -- Whit Monday
    .on 5 1,                             -- Labour Day
    .since 1967 (.on 10 26),             -- National Holiday since 1967
    between 1919 1934 (.on 11 12),       -- National Holiday 1919-1934
    .on 12 24, .on 12 25, .on 12 26,     -- Christmas Eve, Christmas, St. Stephen
    .on 12 31]                           -- Exchange Holiday
  | _ => [
    .on 1 1, .on 1 6,                    -- New Year's Day, Epiphany
    .easter 1,                           -- Easter Monday
    .easter 39, .easter 50, .easter 60,  -- Ascension, Whit Monday, Corpus Christi
    .on 5 1,                             -- Labour Day
    .on 8 15,                            -- Assumption
    .since 1967 (.on 10 26),             -- National Holiday since 1967
    between 1919 1934 (.on 11 12),       -- National Holiday 1919-1934
    .on 11 1,                            -- All Saints' Day
    .on 12 8,                            -- Immaculate Conception
    .on 12 25, .on 12 26]                -- Christmas, St. Stephen

/-- `botswana.rs`. -/
def botswana : List Holiday :=
  sundayToMonday 1 1 ++ [.moved 1 1 [.Sun] 2,  -- New Year's Day (Monday and Tuesday if on Sunday)
  .easter (-2), .easter 1,               -- Good Friday, Easter Monday
  .easter 39]                            -- Ascension
  ++ sundayToMonday 5 1                  -- Labour Day
  ++ sundayToMonday 7 1                  -- Sir Seretse Khama Day
  ++ [.nth 3 .Mon 7]                     -- Presidents' Day
  ++ sundayToMonday 9 30                 -- Independence Day
  ++ sundayToMonday 10 1 ++ [.moved 10 1 [.Sun] 2,  -- Botswana Day (Monday and Tuesday if on Sunday)
  .on 12 25]                             -- Christmas
  ++ sundayToMonday 12 26                -- Boxing Day

/-- `brazil.rs`. -/
def brazil : Option BrazilMarket → List Holiday
  | some .Exchange => [
    .on 1 1, .on 1 25,                   -- New Year's Day, Sao Paulo City Day
    .on 4 21, .on 5 1,                   -- Tiradentes Day, Labor Day
    .on 7 9, .on 9 7,                    -- Revolution Day, Independence Day
    .on 10 12,                           -- Nossa Sra. Aparecida Day
    .on 11 2, .on 11 15,                 -- All Souls Day, Republic Day
    .since 2007 (.on 11 20),             -- Black Consciousness Day
    .on 12 24, .on 12 25,                -- Christmas Eve, Christmas
    .easter (-2),                        -- Passion of Christ
    .easter (-48), .easter (-47),        -- Carnival
    .easter 60,                          -- Corpus Christi
    -- last business day of the year: 31 December, or the Friday before when it falls on a weekend
    .on 12 31, .moved 12 31 [.Sat] (-1), .moved 12 31 [.Sun] (-2)]
  | _ => [
    .on 1 1,                             -- New Year's Day
    .on 4 21, .on 5 1,                   -- Tiradentes Day, Labor Day
    .on 9 7,                             -- Independence Day
    .on 10 12,                           -- Nossa Sra. Aparecida Day
    .on 11 2, .on 11 15,                 -- All Souls Day, Republic Day
    .on 12 25,                           -- Christmas
    .easter (-2),                        -- Passion of Christ
    .easter (-48), .easter (-47),        -- Carnival
    .easter 60]                          -- Corpus Christi

/-- `canada.rs`, both markets. -/
def canadaShared : List Holiday :=
  orMonday 1 1 ++ [                      -- New Year's Day
  .since 2008 (.nth 3 .Mon 2),           -- Family Day
  .easter (-2),                          -- Good Friday
  .firstFrom .Mon 5 18]                  -- Victoria Day, the Monday on or before 24 May
  ++ orMonday 7 1 ++ [                   -- Canada Day
  .nth 1 .Mon 8, .nth 1 .Mon 9]          -- Provincial Holiday, Labor Day
  ++ (orMonday 9 30).map (.since 2021)   -- National Day for Truth and Reconciliation
  ++ [.nth 2 .Mon 10]                    -- Thanksgiving
  ++ orTwoDaysLater 12 25                -- Christmas
  ++ orTwoDaysLater 12 26                -- Boxing Day

/-- `canada.rs`. -/
def canada : Option CanadaMarket → List Holiday
  | some .TSX => canadaShared
  | _ => canadaShared ++ orMonday 11 11  -- Remembrance Day

/-- `chile.rs`. -/
def chile : List Holiday := [
  .on 1 1, .since 2017 (.moved 1 1 [.Sun] 1),  -- New Year's Day
  .easter (-2), .easter (-1),            -- Good Friday, Easter Saturday
  .on 5 1, .on 5 21,                     -- Labour Day, Navy Day
  .since 2021 (.on 6 21),                -- Day of Aboriginal People
  -- St. Peter and St. Paul, 29 June, kept on the Monday before or (Friday) after
  .moved 6 29 [.Mon] 0, .moved 6 29 [.Tue] (-1), .moved 6 29 [.Wed] (-2), .moved 6 29 [.Thu] (-3),
  .moved 6 29 [.Fri] 3,
  .on 7 16, .on 8 15,                    -- Our Lady of Mount Carmel, Assumption
  .since 2007 (.moved 9 18 [.Tue] (-1)), .since 2017 (.moved 9 18 [.Sat] (-1)),
  .on 9 18, .on 9 19,                    -- Independence Day, Army Day, and the bridges around them
  .since 2007 (.moved 9 19 [.Thu] 1),
  -- Discovery of Two Worlds, 12 October, kept on the Monday before or (Friday) after
  .moved 10 12 [.Mon] 0, .moved 10 12 [.Tue] (-1), .moved 10 12 [.Wed] (-2), .moved 10 12 [.Thu] (-3),
  .moved 10 12 [.Fri] 3,
  -- Reformation Day, 31 October, kept on the Friday before (Tuesday) or after (Wednesday)
  .since 2008 (.moved 10 31 [.Mon, .Thu, .Fri, .Sat, .Sun] 0), .since 2008 (.moved 10 31 [.Tue] (-4)),
  .since 2008 (.moved 10 31 [.Wed] 2),
  .on 11 1, .on 12 8, .on 12 25]         -- All Saints' Day, Immaculate Conception, Christmas

/-- `china.rs`. -/
def china : List Holiday := [
  .on 1 1,                               -- New Year's Day
  .till 2008 (.on 4 4),                  -- Ching Ming Festival
  .till 2007 (.span 5 1 7),              -- Labor Day
  .till 2008 (.on 6 9),                  -- Tuen Ng Festival
  .till 2008 (.on 9 15),                 -- Mid-Autumn Festival
  .till 2007 (.span 10 1 7)]             -- National Day
  ++ Closings.china

/-- `czechrepublic.rs`. -/
def czechRepublic : List Holiday := [
  .on 1 1,                               -- New Year's Day
  .since 2016 (.easter (-2)), .easter 1, -- Good Friday since 2016, Easter Monday
  .on 5 1, .on 5 8,                      -- Labour Day, Liberation Day
  .on 7 5, .on 7 6,                      -- SS. Cyril and Methodius, Jan Hus Day
  .on 9 28, .on 10 28,                   -- Czech Statehood Day, Independence Day
  .on 11 17,                             -- Struggle for Freedom and Democracy Day
  .on 12 24, .on 12 25, .on 12 26,       -- Christmas Eve, Christmas, St. Stephen
  .dates 2004 [(1, 2), (12, 31)]]        -- unidentified closings

/-- `denmark.rs`. -/
def denmark : List Holiday := [
  .easter (-3), .easter (-2), .easter 1, -- Maundy Thursday, Good Friday, Easter Monday
  .till 2023 (.easter 26),               -- General Prayer Day
  .easter 39, .since 2009 (.easter 40),  -- Ascension, the day after
  .easter 50,                            -- Whit Monday
  .on 1 1, .on 6 5,                      -- New Year's Day, Constitution Day
  .on 12 24, .on 12 25, .on 12 26,       -- Christmas Eve, Christmas, Boxing Day
  .on 12 31]                             -- New Year's Eve

/-- `finland.rs`. -/
def finland : List Holiday := [
  .on 1 1, .on 1 6,                      -- New Year's Day, Epiphany
  .easter (-2), .easter 1, .easter 39,   -- Good Friday, Easter Monday, Ascension
  .on 5 1,                               -- Labour Day
  .firstFrom .Fri 6 19,                  -- Midsummer Eve
  .on 12 6,                              -- Independence Day
  .on 12 24, .on 12 25, .on 12 26]       -- Christmas Eve, Christmas, Boxing Day

/-- `france.rs`.  The settlement calendar fixes "Ascension" on 10 May and "Pentecôte" on 21 May. -/
def france : Option FranceMarket → List Holiday
  | some .Exchange => [
    .on 1 1,                             -- Jour de l'An
    .easter (-2), .easter 1,             -- Good Friday, Easter Monday
    .on 5 1,                             -- Labor Day
    .on 12 24, .on 12 25, .on 12 26,     -- Christmas Eve, Christmas, Boxing Day
    .on 12 31]                           -- New Year's Eve
  | _ => [
    .on 1 1,                             -- Jour de l'An
    .easter 1,                           -- Lundi de Pâques
    .on 5 1, .on 5 8,                    -- Fête du Travail, Victoire 1945
    .on 5 10, .on 5 21,                  -- "Ascension", "Pentecôte"
    .on 7 14, .on 8 15,                  -- Fête nationale, Assomption
    .on 11 1, .on 11 11,                 -- Toussaint, Armistice 1918
    .on 12 25]                           -- Noël

/-- `germany.rs`, the Frankfurt stock exchange. -/
def frankfurt : List Holiday := [
  .on 1 1,                               -- New Year's Day
  .easter (-2), .easter 1,               -- Good Friday, Easter Monday
  .on 5 1,                               -- Labour Day
  .on 12 24, .on 12 25, .on 12 26]       -- Christmas Eve, Christmas, Boxing Day

/-- `germany.rs`. -/
def germany : Option GermanyMarket → List Holiday
  | some .Settlement => [
    .on 1 1,                             -- New Year's Day
    .easter (-2), .easter 1,             -- Good Friday, Easter Monday
    .easter 39, .easter 50, .easter 60,  -- Ascension, Whit Monday, Corpus Christi
    .on 5 1, .on 10 3,                   -- Labour Day, National Day
    .on 12 24, .on 12 25, .on 12 26]     -- Christmas Eve, Christmas, Boxing Day
  | some .Eurex => frankfurt ++ [.on 12 31]
  | some .Euwax => frankfurt ++ [.easter 50]
  | _ => frankfurt

/-- `hongkong.rs`. -/
def hongKong : List Holiday :=
  sundayToMonday 1 1                     -- New Year's Day
  ++ [.easter (-2), .easter 1]           -- Good Friday, Easter Monday
  ++ sundayToMonday 5 1                  -- Labor Day
  ++ sundayToMonday 7 1                  -- SAR Establishment Day
  ++ sundayToMonday 10 1                 -- National Day
  ++ [.on 12 25, .on 12 26]              -- Christmas, Boxing Day
  ++ Closings.hongKong

/-- `hungary.rs`. -/
def hungary : List Holiday := [
  .since 2017 (.easter (-2)), .easter 1, -- Good Friday since 2017, Easter Monday
  .easter 50,                            -- Whit Monday
  .on 1 1, .on 3 15, .on 5 1,            -- New Year's Day, National Day, Labour Day
  .on 8 20, .on 10 23,                   -- Constitution Day, Republic Day
  .on 11 1, .on 12 25, .on 12 26]        -- All Saints Day, Christmas, second day of Christmas

/-- `iceland.rs`. -/
def iceland : List Holiday := [
  .on 1 1,                               -- New Year's Day
  .easter (-3), .easter (-2), .easter 1, -- Holy Thursday, Good Friday, Easter Monday
  .firstFrom .Thu 4 19,                  -- First day of Summer
  .easter 39, .easter 50,                -- Ascension, Pentecost Monday
  .on 5 1, .on 6 17,                     -- Labour Day, Independence Day
  .nth 1 .Mon 8,                         -- Commerce Day
  .on 12 25, .on 12 26]                  -- Christmas, Boxing Day

/-- `india.rs`. -/
def india : List Holiday := [
  .on 1 26,                              -- Republic Day
  .easter (-2),                          -- Good Friday
  .on 4 14, .on 5 1,                     -- Ambedkar Jayanti, May Day
  .on 8 15, .on 10 2, .on 12 25]         -- Independence Day, Gandhi Jayanti, Christmas
  ++ Closings.india

/-- `indonesia.rs`. -/
def indonesia : List Holiday := [
  .on 1 1,                               -- New Year's Day
  .easter (-2), .easter 39,              -- Good Friday, Ascension
  .on 8 17, .on 12 25]                   -- Independence Day, Christmas
  ++ Closings.indonesia

/-- `israel.rs`. -/
def israel : List Holiday := Closings.israel

/-- `italy.rs`. -/
def italy : Option ItalyMarket → List Holiday
  | some .Exchange => [
    .on 1 1,                             -- New Year's Day
    .easter (-2), .easter 1,             -- Good Friday, Easter Monday
    .on 5 1, .on 8 15,                   -- Labour Day, Assumption
    .on 12 24, .on 12 25, .on 12 26,     -- Christmas Eve, Christmas, St. Stephen
    .on 12 31]                           -- New Year's Eve
  | _ => [
    .on 1 1, .on 1 6,                    -- New Year's Day, Epiphany
    .easter 1,                           -- Easter Monday
    .on 4 25, .on 5 1,                   -- Liberation Day, Labour Day
    .since 2000 (.on 6 2),               -- Republic Day
    .on 8 15, .on 11 1,                  -- Assumption, All Saints' Day
    .on 12 8, .on 12 25, .on 12 26,      -- Immaculate Conception, Christmas, St. Stephen
    .dates 1999 [(12, 31)]]

/-- The years in which the code puts the vernal equinox on 21 March (`japan.rs:11-16`), otherwise 20 March. -/
def lateVernalEquinox : List Int := [2014, 2015, 2018, 2019, 2022, 2023, 2027]

/-- The years in which the code puts the autumnal equinox on 22 September (`japan.rs:17-22`), otherwise 23. -/
def earlyAutumnalEquinox : List Int := [2020, 2024, 2028]

/-- `japan.rs`, January to June. -/
def japanSpring : List Holiday := [
  .on 1 1, .on 1 2, .on 1 3,             -- New Year's Day, bank holidays
  .since 2000 (.nth 2 .Mon 1)]           -- Coming of Age Day, 15 January until 1999
  ++ (sundayToMonday 1 15).map (.till 1999)
  ++ sundayToMonday 2 11                 -- National Foundation Day
  ++ (sundayToMonday 2 23).map (.since 2020)          -- Emperor's Birthday (Naruhito)
  ++ (sundayToMonday 3 21).map (.only lateVernalEquinox)    -- Vernal Equinox
  ++ (sundayToMonday 3 20).map (.except lateVernalEquinox)
  ++ sundayToMonday 4 29                 -- Greenery Day
  ++ [.on 5 3, .on 5 4, .on 5 5,         -- Constitution Memorial Day, Holiday for a Nation, Children's Day
  .moved 5 3 [.Sun] 3, .moved 5 4 [.Sun] 2, .moved 5 5 [.Sun] 1]

/-- `japan.rs`, July and August. -/
def japanSummer : List Holiday := [
  between 2003 2019 (.nth 3 .Mon 7), .since 2022 (.nth 3 .Mon 7)]  -- Marine Day, 20 July 1996-2002
  ++ (sundayToMonday 7 20).map (between 1996 2002)
  ++ (sundayToMonday 8 11).map (between 2016 2019)    -- Mountain Day
  ++ (sundayToMonday 8 11).map (.since 2022)
  ++ [.dates 2020 [(7, 23), (7, 24), (8, 10)], .dates 2021 [(7, 22), (7, 23), (8, 9)]]  -- moved for the Olympics

/-- `japan.rs`, September to December. -/
def japanAutumn : List Holiday := [
  .since 2003 (.nth 3 .Mon 9)]           -- Respect for the Aged Day, 15 September until 2002
  ++ (sundayToMonday 9 15).map (.till 2002)
  -- a Tuesday between Respect for the Aged Day and the equinox
  ++ [.since 2003 (.except earlyAutumnalEquinox (.moved 9 22 [.Tue] 0)),
  .only earlyAutumnalEquinox (.moved 9 21 [.Tue] 0)]
  ++ (sundayToMonday 9 22).map (.only earlyAutumnalEquinox)   -- Autumnal Equinox
  ++ (sundayToMonday 9 23).map (.except earlyAutumnalEquinox)
  -- Health and Sports Day, 10 October until 1999
  ++ [between 2000 2019 (.nth 2 .Mon 10), .since 2022 (.nth 2 .Mon 10)]
  ++ (sundayToMonday 10 10).map (.till 1999)
  ++ sundayToMonday 11 3                 -- National Culture Day
  ++ sundayToMonday 11 23                -- Labor Thanksgiving Day
  ++ (sundayToMonday 12 23).map (between 1989 2018)   -- Emperor's Birthday (Akihito)
  ++ [.on 12 31]                         -- bank holiday

/-- `japan.rs`. -/
def japan : List Holiday := japanSpring ++ japanSummer ++ japanAutumn ++ [
  .dates 1959 [(4, 10)],                 -- Marriage of Prince Akihito
  .dates 1989 [(2, 24)],                 -- Rites of Imperial Funeral
  .dates 1990 [(11, 12)],                -- Enthronement Ceremony (Akihito)
  .dates 1993 [(6, 9)],                  -- Marriage of Prince Naruhito
  .dates 2019 [(4, 30), (5, 1), (5, 2), (10, 22)]]  -- Enthronement (Naruhito)

/-- `mexico.rs`. -/
def mexico : List Holiday := [
  .on 1 1,                               -- New Year's Day
  .till 2005 (.on 2 5), .since 2006 (.nth 1 .Mon 2),    -- Constitution Day
  .till 2005 (.on 3 21), .since 2006 (.nth 3 .Mon 3),   -- Birthday of Benito Juarez
  .easter (-3), .easter (-2),            -- Holy Thursday, Good Friday
  .on 5 1, .on 9 16, .on 11 2,           -- Labour Day, National Day, All Souls Day
  .till 2005 (.on 11 20), .since 2006 (.nth 3 .Mon 11), -- Revolution Day
  .on 12 12, .on 12 25]                  -- Our Lady of Guadalupe, Christmas

/-- `newzealand.rs`. -/
def newZealand : List Holiday :=
  orTwoDaysLater 1 1 ++ orTwoDaysLater 1 2 ++ [  -- New Year's Day, the day after
  .firstFrom .Mon 1 19,                  -- Anniversary Day, the Monday nearest 22 January
  .on 2 6, .since 2014 (.moved 2 6 [.Sat] 2), .since 2014 (.moved 2 6 [.Sun] 1),      -- Waitangi Day
  .easter (-2), .easter 1,               -- Good Friday, Easter Monday
  .on 4 25, .since 2014 (.moved 4 25 [.Sat] 2), .since 2014 (.moved 4 25 [.Sun] 1),   -- ANZAC Day
  .nth 1 .Mon 6, .nth 4 .Mon 10]         -- Queen's Birthday, Labour Day
  ++ orTwoDaysLater 12 25                -- Christmas
  ++ orTwoDaysLater 12 26                -- Boxing Day
  ++ Closings.newZealand                 -- Matariki

/-- `norway.rs`. -/
def norway : List Holiday := [
  .easter (-3), .easter (-2), .easter 1, -- Holy Thursday, Good Friday, Easter Monday
  .easter 39, .easter 50,                -- Ascension, Whit Monday
  .on 1 1, .on 5 1, .on 5 17,            -- New Year's Day, May Day, National Independence Day
  .since 2002 (.on 12 24),               -- Christmas Eve
  .on 12 25, .on 12 26]                  -- Christmas, Boxing Day

/-- `poland.rs`. -/
def poland : List Holiday := [
  .easter 1, .easter 60,                 -- Easter Monday, Corpus Christi
  .on 1 1, .since 2011 (.on 1 6),        -- New Year's Day, Epiphany
  .on 5 1, .on 5 3,                      -- May Day, Constitution Day
  .on 8 15, .on 11 1, .on 11 11,         -- Assumption, All Saints, Independence Day
  .on 12 25, .on 12 26]                  -- Christmas, second day of Christmas

/-- `romania.rs`. -/
def romania : List Holiday := [
  .on 1 1, .on 1 2, .on 1 24,            -- New Year's Day, the day after, Unification Day
  .orthodoxEaster 1,                     -- Orthodox Easter Monday
  .on 5 1,                               -- Labour Day
  .orthodoxEaster 50,                    -- Pentecost
  .since 2017 (.on 6 1),                 -- Children's Day
  .on 8 15, .on 11 30, .on 12 1,         -- St Mary's Day, St Andrew, National Day
  .on 12 25, .on 12 26]                  -- Christmas, second day of Christmas

/-- `russia.rs`.  On the exchange `RussianWorkingWeekend`s come first. -/
def russia : Option RussiaMarket → List Holiday
  | some .Exchange => [
    .on 2 23]                            -- Defender of the Fatherland Day
    ++ orMonday 3 8                      -- International Women's Day
    ++ [.on 5 1]                         -- Labour Day
    ++ orMonday 5 9                      -- Victory Day
    ++ [.on 6 12]                        -- Russia Day
    ++ orMonday 11 4                     -- Unity Day
    ++ [.on 12 31,                       -- New Year's Eve
    .dates 2012 [(1, 2), (3, 9), (4, 30), (6, 11)],
    .dates 2013 [(1, 1), (1, 2), (1, 3), (1, 4), (1, 7)],
    .dates 2014 [(1, 1), (1, 2), (1, 3), (1, 7)],
    .dates 2015 [(1, 1), (1, 2), (1, 7)],
    .dates 2016 [(1, 1), (1, 7), (1, 8), (5, 2), (5, 3), (6, 13), (12, 30)],
    .dates 2017 [(1, 2), (5, 8)],
    .dates 2018 [(1, 1), (1, 2), (1, 8), (12, 31)],
    .dates 2019 [(1, 1), (1, 2), (1, 7), (12, 31)],
    .dates 2020 [(1, 1), (1, 2), (1, 7), (2, 24), (6, 24), (7, 1)]]
  | _ => [
    .till 2005 (.span 1 1 2), .since 2005 (.span 1 1 5), .dates 2012 [(1, 6)]]  -- New Year's holidays
    ++ orMonday 1 7                      -- Christmas
    ++ orMonday 2 23                     -- Defender of the Fatherland Day
    ++ orMonday 3 8                      -- International Women's Day
    ++ orMonday 5 1                      -- Labour Day
    ++ orMonday 5 9                      -- Victory Day
    ++ orMonday 6 12                     -- Russia Day
    ++ orMonday 11 4                     -- Unity Day
    ++ [.dates 2017 [(2, 24), (5, 8), (11, 6)],
    .dates 2018 [(3, 9), (4, 30), (5, 2), (6, 11), (12, 31)],
    .dates 2019 [(5, 2), (5, 3), (5, 9)],
    .dates 2020 [(3, 30), (3, 31), (4, 1), (4, 2), (4, 3)]]

/-- `singapore.rs`. -/
def singapore : List Holiday :=
  sundayToMonday 1 1                     -- New Year's Day
  ++ [.easter (-2), .on 5 1]             -- Good Friday, Labor Day
  ++ sundayToMonday 8 9                  -- National Day
  ++ [.on 12 25]                         -- Christmas
  ++ Closings.singapore

/-- `slovakia.rs`. -/
def slovakia : List Holiday := [
  .on 1 1, .on 1 6,                      -- New Year's Day, Epiphany
  .easter (-2), .easter 1,               -- Good Friday, Easter Monday
  .on 5 1, .on 5 8,                      -- May Day, Liberation of the Republic
  .on 7 5, .on 8 29,                     -- SS. Cyril and Methodius, Slovak National Uprising
  .on 9 1, .on 9 15,                     -- Constitution, Our Lady of the Seven Sorrows
  .on 11 1, .on 11 17,                   -- All Saints, Freedom and Democracy
  .on 12 24, .on 12 25, .on 12 26,       -- Christmas Eve, Christmas, St. Stephen
  .only [2004, 2005] (.span 12 24 31)]   -- unidentified closings

/-- `southafrica.rs`. -/
def southAfrica : List Holiday :=
  sundayToMonday 1 1                     -- New Year's Day
  ++ [.easter (-2), .easter 1]           -- Good Friday, Family Day
  ++ sundayToMonday 3 21                 -- Human Rights Day
  ++ sundayToMonday 4 27                 -- Freedom Day
  ++ sundayToMonday 5 1                  -- Workers Day
  ++ sundayToMonday 6 16                 -- Youth Day
  ++ sundayToMonday 8 9                  -- National Women's Day
  ++ sundayToMonday 9 24                 -- Heritage Day
  ++ sundayToMonday 12 16                -- Day of Reconciliation
  ++ [.on 12 25]                         -- Christmas
  ++ sundayToMonday 12 26                -- Day of Goodwill
  ++ [.dates 2004 [(4, 14)], .dates 2009 [(4, 22)], .dates 2016 [(8, 3)], .dates 2021 [(11, 1)],  -- elections
  .dates 2022 [(12, 27)]]                -- in lieu of Christmas

/-- `southkorea.rs`. -/
def southKorea : List Holiday := [
  .on 1 1,                               -- New Year's Day
  .on 3 1, .since 2022 (.moved 3 1 [.Sat] 2), .since 2022 (.moved 3 1 [.Sun] 1),       -- Independence Day
  .till 2005 (.on 4 5),                  -- Arbour Day
  .on 5 1,                               -- Labour Day
  .on 5 5, .since 2014 (.moved 5 5 [.Sat] 2), .since 2014 (.moved 5 5 [.Sun] 1),       -- Children's Day
  .on 6 6,                               -- Memorial Day
  .till 2007 (.on 7 17),                 -- Constitution Day
  .on 8 15, .since 2021 (.moved 8 15 [.Sat] 2), .since 2021 (.moved 8 15 [.Sun] 1),    -- Liberation Day
  .on 10 3, .since 2021 (.moved 10 3 [.Sat] 2), .since 2021 (.moved 10 3 [.Sun] 1),    -- National Foundation
  .on 12 25, .since 2023 (.moved 12 25 [.Sat] 2), .since 2023 (.moved 12 25 [.Sun] 1), -- Christmas
  .since 2013 (.on 10 9), .since 2021 (.moved 10 9 [.Sat] 2), .since 2021 (.moved 10 9 [.Sun] 1)]  -- Hangul Day
  ++ Closings.southKorea

/-- `sweden.rs`. -/
def sweden : List Holiday := [
  .easter (-2), .easter 1, .easter 39,   -- Good Friday, Easter Monday, Ascension
  .till 2004 (.easter 50),               -- Whit Monday
  .on 1 1, .on 1 6, .on 5 1,             -- New Year's Day, Epiphany, May Day
  .since 2005 (.on 6 6),                 -- National Day
  .firstFrom .Fri 6 19,                  -- Midsummer Eve
  .on 12 24, .on 12 25, .on 12 26,       -- Christmas Eve, Christmas, Boxing Day
  .on 12 31]                             -- New Year's Eve

/-- `switzerland.rs`. -/
def switzerland : List Holiday := [
  .on 1 1, .on 1 2,                      -- New Year's Day, Berchtoldstag
  .easter (-2), .easter 1,               -- Good Friday, Easter Monday
  .easter 39, .easter 50,                -- Ascension, Whit Monday
  .on 5 1, .on 8 1,                      -- Labour Day, National Day
  .on 12 25, .on 12 26]                  -- Christmas, St. Stephen's Day

/-- `taiwan.rs`. -/
def taiwan : List Holiday := [
  .on 1 1, .on 2 28,                     -- New Year's Day, Peace Memorial Day
  .except [2008, 2009, 2012, 2017] (.on 4 5),  -- Tomb Sweeping Day
  .on 5 1, .on 10 10]                    -- Labor Day, Double Tenth
  ++ Closings.taiwan

/-- `target.rs`. -/
def target : List Holiday := [
  .on 1 1,                               -- New Year's Day
  .since 2000 (.easter (-2)),            -- Good Friday
  .since 2000 (.easter 1),               -- Easter Monday
  .since 2000 (.on 5 1),                 -- Labour Day
  .on 12 25,                             -- Christmas
  .since 2000 (.on 12 26),               -- Day of Goodwill
  .only [1998, 1999, 2001] (.on 12 31)]

/-- `thailand.rs`. -/
def thailand : List Holiday :=
  orMonday 1 1                           -- New Year's Day
  ++ orMonday 4 6                        -- Chakri Memorial Day
  ++ [.span 4 13 15,                     -- Songkran, with one day in lieu of a weekend
  .moved 4 14 [.Sun] 2, .moved 4 15 [.Sun] 1]
  ++ orMonday 5 1                        -- Labor Day
  ++ (orMonday 7 28).map (.since 2017)   -- H.M. the King's Birthday
  ++ orMonday 8 12                       -- H.M. the Queen's Birthday
  ++ (orMonday 10 13).map (.since 2017)  -- H.M. King Bhumibol Adulyadej Memorial Day
  ++ orMonday 12 5                       -- H.M. King Bhumibol Adulyadej's Birthday
  ++ orMonday 12 10                      -- Constitution Day
  ++ [.on 12 31]                         -- New Year's Eve
  ++ Closings.thailand

/-- `turkey.rs`. -/
def turkey : List Holiday := [
  .on 1 1, .on 4 23, .on 5 1, .on 5 19, .since 2017 (.on 7 15), .on 8 30, .on 10 29]
  ++ Closings.turkey

/-- `ukraine.rs`.  The feasts are counted from Western Easter. -/
def ukraine : List Holiday :=
  orMonday 1 1                           -- New Year's Day
  ++ orMonday 1 7                        -- Orthodox Christmas
  ++ orMonday 3 8                        -- Women's Day
  ++ [.easter 1, .easter 50,             -- "Orthodox Easter Monday", "Holy Trinity Day"
  .on 5 1, .on 5 2, .moved 5 2 [.Sun] 1] -- Workers' Solidarity Days
  ++ orMonday 5 9                        -- Victory Day
  ++ [.on 6 28, .on 8 24,                -- Constitution Day, Independence Day
  .since 2015 (.on 10 14)]               -- Defender's Day

/-- `unitedkingdom.rs`, every market. -/
def unitedKingdom : List Holiday :=
  orMonday 1 1 ++ [                      -- New Year's Day
  .easter (-2), .easter 1,               -- Good Friday, Easter Monday
  -- Early May Bank Holiday, moved to V.E. Day in 1995 and 2020
  .except [1995, 2020] (.nth 1 .Mon 5), .only [1995, 2020] (.on 5 8),
  -- Spring Bank Holiday, moved for the jubilees
  .except [2002, 2012, 2022] (.last .Mon 5), .dates 2002 [(6, 3), (6, 4)], .dates 2012 [(6, 4), (6, 5)],
  .dates 2022 [(6, 2), (6, 3)],
  .last .Mon 8,                          -- Summer Bank Holiday
  .dates 2011 [(4, 29)],                 -- Royal Wedding
  .dates 2022 [(9, 19)],                 -- The Queen's Funeral
  .dates 2023 [(5, 8)]]                  -- Coronation
  ++ orTwoDaysLater 12 25                -- Christmas
  ++ orTwoDaysLater 12 26                -- Boxing Day
  ++ [.dates 1999 [(12, 31)]]

/-- Memorial Day and Labor Day (`unitedstates.rs`). -/
def memorialAndLaborDay : List Holiday :=
  (nearestWeekday 5 30).map (.till 1970) ++ [.since 1971 (.last .Mon 5), .nth 1 .Mon 9]

/-- Washington's birthday, Memorial Day and Labor Day (`unitedstates.rs`). -/
def usCommon : List Holiday :=
  (nearestWeekday 2 22).map (.till 1970) ++ [.since 1971 (.nth 3 .Mon 2)] ++ memorialAndLaborDay

/-- Juneteenth (`unitedstates.rs:67-72`). -/
def juneteenth : List Holiday := (nearestWeekday 6 19).map (.since 2022)

/-- Veterans Day: 11 November, the fourth Monday of October from 1971 to 1977; `kept` are the days on which the
11 November is kept (`unitedstates.rs:49-66`). -/
def veteransDay (kept : List Holiday) : List Holiday :=
  kept.map (.till 1970) ++ kept.map (.since 1978) ++ [between 1971 1977 (.nth 4 .Mon 10)]

/-- `unitedstates.rs`, settlement, except Independence Day. -/
def usSettlement : List Holiday :=
  nearestWeekday 1 1                     -- New Year's Day
  ++ [.since 1983 (.nth 3 .Mon 1)]       -- Martin Luther King's birthday
  ++ usCommon ++ juneteenth
  ++ [.since 1971 (.nth 2 .Mon 10)]      -- Columbus Day
  ++ veteransDay (nearestWeekday 11 11)
  ++ [.nth 4 .Thu 11]                    -- Thanksgiving
  ++ nearestWeekday 12 25                -- Christmas

/-- `unitedstates.rs`, government bonds. -/
def usGovernmentBond : List Holiday :=
  sundayToMonday 1 1                     -- New Year's Day
  ++ [.since 1983 (.nth 3 .Mon 1)]       -- Martin Luther King's birthday
  ++ usCommon ++ juneteenth
  ++ [.except [2015, 2021, 2023] (.easter (-2))]  -- Good Friday
  ++ nearestWeekday 7 4                  -- Independence Day
  ++ [.since 1971 (.nth 2 .Mon 10)]      -- Columbus Day
  ++ veteransDay (sundayToMonday 11 11)
  ++ [.nth 4 .Thu 11]                    -- Thanksgiving
  ++ nearestWeekday 12 25                -- Christmas
  ++ [.dates 2018 [(12, 5)], .dates 2012 [(10, 30)], .dates 2004 [(6, 11)]]

/-- `unitedstates.rs`. -/
def unitedStates : Option UnitedStatesMarket → List Holiday
  | some .Libor => usSettlement ++ [.on 7 4] ++ (nearestWeekday 7 4).map (.till 2014)
  | some .NYSE =>
    sundayToMonday 1 1                   -- New Year's Day
    ++ usCommon ++ juneteenth
    ++ [.easter (-2)]                    -- Good Friday
    ++ nearestWeekday 7 4                -- Independence Day
    ++ [.nth 4 .Thu 11]                  -- Thanksgiving
    ++ nearestWeekday 12 25              -- Christmas
    ++ [.since 1998 (.nth 3 .Mon 1),     -- Martin Luther King's birthday
    .till 1968 (.nth 1 .Tue 11), .only [1972, 1976, 1980] (.nth 1 .Tue 11),  -- election days
    .dates 2018 [(12, 5)],               -- President Bush's Funeral
    .dates 2012 [(10, 29), (10, 30)],    -- Hurricane Sandy
    .dates 2007 [(1, 2)],                -- President Ford's funeral
    .dates 2004 [(6, 11)],               -- President Reagan's funeral
    .dates 2001 [(9, 11), (9, 12), (9, 13), (9, 14)],
    .dates 1994 [(4, 27)],               -- President Nixon's funeral
    .dates 1985 [(9, 27)],               -- Hurricane Gloria
    .dates 1977 [(7, 14)],               -- 1977 Blackout
    .dates 1973 [(1, 25)],               -- Funeral of Lyndon B. Johnson
    .dates 1972 [(12, 28)],              -- Funeral of Harry S. Truman
    .dates 1969 [(2, 10), (3, 31), (7, 21)],  -- snow, Funeral of Eisenhower, lunar exploration
    .dates 1968 [(4, 9), (7, 5)],        -- mourning for Martin Luther King Jr., day after Independence Day
    .weekly .Wed 1968 6 12,              -- four day week (paperwork crisis)
    .dates 1963 [(11, 25)],              -- Funeral of President Kennedy
    .dates 1961 [(5, 29)],               -- day before Decoration Day
    .dates 1958 [(12, 26)],              -- day after Christmas
    .only [1954, 1956, 1965] (.on 12 24)]  -- Christmas Eve
  | some .GovernmentBond => usGovernmentBond
  | some .SOFR => usGovernmentBond ++ [.dates 2023 [(4, 7)]]
  | some .NERC =>
    sundayToMonday 1 1                   -- New Year's Day
    ++ memorialAndLaborDay
    ++ sundayToMonday 7 4                -- Independence Day
    ++ [.nth 4 .Thu 11]                  -- Thanksgiving
    ++ sundayToMonday 12 25              -- Christmas
  | some .FederalReserve =>
    sundayToMonday 1 1                   -- New Year's Day
    ++ [.since 1983 (.nth 3 .Mon 1)]     -- Martin Luther King's birthday
    ++ usCommon ++ juneteenth
    ++ sundayToMonday 7 4                -- Independence Day
    ++ [.since 1971 (.nth 2 .Mon 10)]    -- Columbus Day
    ++ veteransDay (sundayToMonday 11 11)
    ++ [.nth 4 .Thu 11]                  -- Thanksgiving
    ++ sundayToMonday 12 25              -- Christmas
  | _ => usSettlement ++ nearestWeekday 7 4

end Holidays

/-- The holidays of a shipped calendar, except the weekly rest days. -/
def holidays : Shipped → List Holiday
  | .argentina => Holidays.argentina
  | .australia m => Holidays.australia m
  | .austria m => Holidays.austria m
  | .botswana => Holidays.botswana
  | .brazil m => Holidays.brazil m
  | .canada m => Holidays.canada m
  | .chile => Holidays.chile
  | .china => Holidays.china
  | .czechRepublic => Holidays.czechRepublic
  | .denmark => Holidays.denmark
  | .finland => Holidays.finland
  | .france m => Holidays.france m
  | .germany m => Holidays.germany m
  | .hongKong => Holidays.hongKong
  | .hungary => Holidays.hungary
  | .iceland => Holidays.iceland
  | .india => Holidays.india
  | .indonesia => Holidays.indonesia
  | .israel => Holidays.israel
  | .italy m => Holidays.italy m
  | .japan => Holidays.japan
  | .mexico => Holidays.mexico
  | .newZealand => Holidays.newZealand
  | .norway => Holidays.norway
  | .poland => Holidays.poland
  | .romania => Holidays.romania
  | .russia m => Holidays.russia m
  | .singapore => Holidays.singapore
  | .slovakia => Holidays.slovakia
  | .southAfrica => Holidays.southAfrica
  | .southKorea => Holidays.southKorea
  | .sweden => Holidays.sweden
  | .switzerland => Holidays.switzerland
  | .taiwan => Holidays.taiwan
  | .target => Holidays.target
  | .thailand => Holidays.thailand
  | .turkey => Holidays.turkey
  | .ukraine => Holidays.ukraine
  | .unitedKingdom _ => Holidays.unitedKingdom
  | .unitedStates m => Holidays.unitedStates m
  | .weekendsOnly => []

/-- The weekly rest days of a shipped calendar: Friday and Saturday in Israel, otherwise Saturday and Sunday
(on the Russian exchange except the working weekends). -/
def RestDay : Shipped → Date → Prop
  | .israel, d => d.weekday = .Fri ∨ d.weekday = .Sat
  | .russia (some .Exchange), d => IsSaturdayOrSunday d ∧ ¬ RussianWorkingWeekend d
  | _, d => IsSaturdayOrSunday d

end Qlab.Spec
