import Verif.Model.Easter

/-! Generated by `tools/gen_calendars.py` from `third-parties/calendar/src/turkey.rs`. -/

namespace Qlab

namespace Turkey

set_option maxRecDepth 4000 in
/-- `Turkey::is_business_day` (`third-parties/calendar/src/turkey.rs:11-293`). -/
def isBusinessDay (date : NaiveDate) : Bool :=
  let d := date.day
  let m := date.month
  let y := date.year
  if isWeekend date
      || (d == 1 && m == 1)
      || (d == 23 && m == 4)
      || (d == 1 && m == 5)
      || (d == 19 && m == 5)
      || (d == 15 && m == 7 && decide (y ≥ 2017))
      || (d == 30 && m == 8)
      || (d == 29 && m == 10)
  then
    false
  else
  if y == 2004
  then
    if (m == 2 && decide (d ≤ 4))
        || (m == 11 && (decide (14 ≤ d) && decide (d ≤ 16)))
    then
      false
    else
    true
  else
    if y == 2005
    then
      if (m == 1 && (decide (19 ≤ d) && decide (d ≤ 21)))
          || (m == 11 && (decide (2 ≤ d) && decide (d ≤ 5)))
      then
        false
      else
      true
    else
      if y == 2006
      then
        if (m == 1 && (decide (10 ≤ d) && decide (d ≤ 13)))
            || (m == 10 && (decide (23 ≤ d) && decide (d ≤ 25)))
            || (m == 12 && d == 31)
        then
          false
        else
        true
      else
        if y == 2007
        then
          if (m == 1 && decide (d ≤ 3))
              || (m == 10 && (decide (12 ≤ d) && decide (d ≤ 14)))
              || (m == 12 && (decide (20 ≤ d) && decide (d ≤ 23)))
          then
            false
          else
          true
        else
          if y == 2008
          then
            if (m == 9 && d == 30)
                || (m == 10 && decide (d ≤ 2))
                || (m == 12 && (decide (8 ≤ d) && decide (d ≤ 11)))
            then
              false
            else
            true
          else
            if y == 2009
            then
              if (m == 9 && (decide (20 ≤ d) && decide (d ≤ 22)))
                  || (m == 11 && (decide (27 ≤ d) && decide (d ≤ 30)))
              then
                false
              else
              true
            else
              if y == 2010
              then
                if (m == 9 && (decide (9 ≤ d) && decide (d ≤ 11)))
                    || (m == 11 && (decide (16 ≤ d) && decide (d ≤ 19)))
                then
                  false
                else
                true
              else
                if y == 2011
                then
                  if (m == 10 && d == 1)
                      || (m == 11 && (decide (9 ≤ d) && decide (d ≤ 13)))
                  then
                    false
                  else
                  true
                else
                  if y == 2012
                  then
                    if (m == 8 && (decide (18 ≤ d) && decide (d ≤ 21)))
                        || (m == 10 && (decide (24 ≤ d) && decide (d ≤ 28)))
                    then
                      false
                    else
                    true
                  else
                    if y == 2013
                    then
                      if (m == 8 && (decide (7 ≤ d) && decide (d ≤ 10)))
                          || (m == 10 && (decide (14 ≤ d) && decide (d ≤ 18)))
                          || (m == 10 && d == 28)
                      then
                        false
                      else
                      true
                    else
                      if y == 2014
                      then
                        if (m == 7 && (decide (27 ≤ d) && decide (d ≤ 30)))
                            || (m == 10 && (decide (4 ≤ d) && decide (d ≤ 7)))
                            || (m == 10 && d == 29)
                        then
                          false
                        else
                        true
                      else
                        if y == 2015
                        then
                          if (m == 7 && (decide (17 ≤ d) && decide (d ≤ 19)))
                              || (m == 10 && (decide (24 ≤ d) && decide (d ≤ 27)))
                          then
                            false
                          else
                          true
                        else
                          if y == 2016
                          then
                            if (m == 7 && (decide (5 ≤ d) && decide (d ≤ 7)))
                                || (m == 9 && (decide (12 ≤ d) && decide (d ≤ 15)))
                            then
                              false
                            else
                            true
                          else
                            if y == 2017
                            then
                              if (m == 6 && (decide (25 ≤ d) && decide (d ≤ 27)))
                                  || (m == 9 && (decide (1 ≤ d) && decide (d ≤ 4)))
                              then
                                false
                              else
                              true
                            else
                              if y == 2018
                              then
                                if (m == 6 && (decide (15 ≤ d) && decide (d ≤ 17)))
                                    || (m == 8 && (decide (21 ≤ d) && decide (d ≤ 24)))
                                then
                                  false
                                else
                                true
                              else
                                if y == 2019
                                then
                                  if (m == 6 && (decide (4 ≤ d) && decide (d ≤ 6)))
                                      || (m == 8 && (decide (11 ≤ d) && decide (d ≤ 14)))
                                  then
                                    false
                                  else
                                  true
                                else
                                  if y == 2020
                                  then
                                    if (m == 5 && (decide (24 ≤ d) && decide (d ≤ 26)))
                                        || (m == 7 && d == 31)
                                        || (m == 8 && (decide (1 ≤ d) && decide (d ≤ 3)))
                                    then
                                      false
                                    else
                                    true
                                  else
                                    if y == 2021
                                    then
                                      if (m == 5 && (decide (13 ≤ d) && decide (d ≤ 15)))
                                          || (m == 7 && (decide (20 ≤ d) && decide (d ≤ 23)))
                                      then
                                        false
                                      else
                                      true
                                    else
                                      if y == 2022
                                      then
                                        if (m == 5 && (decide (2 ≤ d) && decide (d ≤ 4)))
                                            || (m == 7 && (decide (9 ≤ d) && decide (d ≤ 12)))
                                        then
                                          false
                                        else
                                        true
                                      else
                                        if y == 2023
                                        then
                                          if (m == 4 && (decide (21 ≤ d) && decide (d ≤ 23)))
                                              || (m == 6 && (decide (28 ≤ d) && decide (d ≤ 30)))
                                          then
                                            false
                                          else
                                          true
                                        else
                                          if y == 2024
                                          then
                                            if (m == 4 && (decide (10 ≤ d) && decide (d ≤ 12)))
                                                || (m == 6 && (decide (17 ≤ d) && decide (d ≤ 19)))
                                            then
                                              false
                                            else
                                            true
                                          else
                                            if y == 2025
                                            then
                                              if (m == 3 && d == 31)
                                                  || (m == 4 && (decide (1 ≤ d) && decide (d ≤ 2)))
                                                  || (m == 6 && (decide (6 ≤ d) && decide (d ≤ 9)))
                                              then
                                                false
                                              else
                                              true
                                            else
                                              if y == 2026
                                              then
                                                if (m == 3 && (decide (20 ≤ d) && decide (d ≤ 22)))
                                                    || (m == 5 && (decide (26 ≤ d) && decide (d ≤ 29)))
                                                then
                                                  false
                                                else
                                                true
                                              else
                                                if y == 2027
                                                then
                                                  if (m == 3 && (decide (10 ≤ d) && decide (d ≤ 12)))
                                                      || (m == 5 && (decide (16 ≤ d) && decide (d ≤ 19)))
                                                  then
                                                    false
                                                  else
                                                  true
                                                else
                                                  if y == 2028
                                                  then
                                                    if (m == 2 && (decide (27 ≤ d) && decide (d ≤ 29)))
                                                        || (m == 5 && (decide (4 ≤ d) && decide (d ≤ 7)))
                                                    then
                                                      false
                                                    else
                                                    true
                                                  else
                                                    if y == 2029
                                                    then
                                                      if (m == 2 && (decide (15 ≤ d) && decide (d ≤ 17)))
                                                          || (m == 4 && (decide (23 ≤ d) && decide (d ≤ 26)))
                                                      then
                                                        false
                                                      else
                                                      true
                                                    else
                                                      if y == 2030
                                                      then
                                                        if (m == 2 && (decide (5 ≤ d) && decide (d ≤ 7)))
                                                            || (m == 4 && (decide (13 ≤ d) && decide (d ≤ 16)))
                                                        then
                                                          false
                                                        else
                                                        true
                                                      else
                                                        if y == 2031
                                                        then
                                                          if (m == 1 && (decide (25 ≤ d) && decide (d ≤ 27)))
                                                              || (m == 4 && (decide (2 ≤ d) && decide (d ≤ 5)))
                                                          then
                                                            false
                                                          else
                                                          true
                                                        else
                                                          if y == 2032
                                                          then
                                                            if (m == 1 && (decide (14 ≤ d) && decide (d ≤ 16)))
                                                                || (m == 3 && (decide (21 ≤ d) && decide (d ≤ 24)))
                                                            then
                                                              false
                                                            else
                                                            true
                                                          else
                                                            if y == 2033
                                                            then
                                                              if (m == 1 && (decide (3 ≤ d) && decide (d ≤ 5)))
                                                                  || (m == 12 && d == 23)
                                                                  || (m == 3 && (decide (11 ≤ d) && decide (d ≤ 14)))
                                                              then
                                                                false
                                                              else
                                                              true
                                                            else
                                                              if y == 2034
                                                              then
                                                                if (m == 12 && (decide (12 ≤ d) && decide (d ≤ 14)))
                                                                    || (m == 2 && d == 28)
                                                                    || (m == 3 && (decide (1 ≤ d) && decide (d ≤ 3)))
                                                                then
                                                                  false
                                                                else
                                                                true
                                                              else
                                                              true

end Turkey

/-- The calendar `Turkey` (`third-parties/calendar/src/turkey.rs:8`). -/
def Calendar.turkey : Calendar where
  isBusinessDay date := .ok (Turkey.isBusinessDay date)

end Qlab
