/-! GENERATED by tools/gen_timezones.py from /repo/internal/timezone/timezones.go; do not edit. -/
set_option autoImplicit false
namespace Verif.Data

/-- first entry of `timezoneInfoList` (timezones.go:18-81): `Timezones`. -/
def utcZones : List (List Char × Int) :=
  [(['U', 'T', 'C', '-', '1', '2', ':', '0', '0'], -43200),
   (['U', 'T', 'C', '-', '1', '1', ':', '0', '0'], -39600),
   (['U', 'T', 'C', '-', '1', '0', ':', '0', '0'], -36000),
   (['U', 'T', 'C', '-', '0', '9', ':', '3', '0'], -34200),
   (['U', 'T', 'C', '-', '0', '9', ':', '0', '0'], -32400),
   (['U', 'T', 'C', '-', '0', '8', ':', '0', '0'], -28800),
   (['U', 'T', 'C', '-', '0', '7', ':', '0', '0'], -25200),
   (['U', 'T', 'C', '-', '0', '6', ':', '0', '0'], -21600),
   (['U', 'T', 'C', '-', '0', '5', ':', '0', '0'], -18000),
   (['U', 'T', 'C', '-', '0', '4', ':', '3', '0'], -16200),
   (['U', 'T', 'C', '-', '0', '4', ':', '0', '0'], -14400),
   (['U', 'T', 'C', '-', '0', '3', ':', '3', '0'], -12600),
   (['U', 'T', 'C', '-', '0', '3', ':', '0', '0'], -10800),
   (['U', 'T', 'C', '-', '0', '2', ':', '3', '0'], -9000),
   (['U', 'T', 'C', '-', '0', '2', ':', '0', '0'], -7200),
   (['U', 'T', 'C', '-', '0', '1', ':', '0', '0'], -3600),
   (['U', 'T', 'C', '-', '0', '0', ':', '0', '0'], 0),
   (['U', 'T', 'C', '+', '0', '0', ':', '0', '0'], 0),
   (['U', 'T', 'C', '+', '0', '1', ':', '0', '0'], 3600),
   (['U', 'T', 'C', '+', '0', '2', ':', '0', '0'], 7200),
   (['U', 'T', 'C', '+', '0', '3', ':', '0', '0'], 10800),
   (['U', 'T', 'C', '+', '0', '3', ':', '3', '0'], 12600),
   (['U', 'T', 'C', '+', '0', '4', ':', '0', '0'], 14400),
   (['U', 'T', 'C', '+', '0', '4', ':', '3', '0'], 16200),
   (['U', 'T', 'C', '+', '0', '5', ':', '0', '0'], 18000),
   (['U', 'T', 'C', '+', '0', '5', ':', '3', '0'], 19800),
   (['U', 'T', 'C', '+', '0', '5', ':', '4', '5'], 20700),
   (['U', 'T', 'C', '+', '0', '6', ':', '0', '0'], 21600),
   (['U', 'T', 'C', '+', '0', '6', ':', '3', '0'], 23400),
   (['U', 'T', 'C', '+', '0', '7', ':', '0', '0'], 25200),
   (['U', 'T', 'C', '+', '0', '8', ':', '0', '0'], 28800),
   (['U', 'T', 'C', '+', '0', '8', ':', '4', '5'], 31500),
   (['U', 'T', 'C', '+', '0', '9', ':', '0', '0'], 32400),
   (['U', 'T', 'C', '+', '0', '9', ':', '3', '0'], 34200),
   (['U', 'T', 'C', '+', '1', '0', ':', '0', '0'], 36000),
   (['U', 'T', 'C', '+', '1', '0', ':', '3', '0'], 37800),
   (['U', 'T', 'C', '+', '1', '1', ':', '0', '0'], 39600),
   (['U', 'T', 'C', '+', '1', '1', ':', '3', '0'], 41400),
   (['U', 'T', 'C', '+', '1', '2', ':', '0', '0'], 43200),
   (['U', 'T', 'C', '+', '1', '2', ':', '4', '5'], 45900),
   (['U', 'T', 'C', '+', '1', '3', ':', '0', '0'], 46800),
   (['U', 'T', 'C', '+', '1', '4', ':', '0', '0'], 50400)]

/-- second entry of `timezoneInfoList` (timezones.go:82-480): `Timezones`. -/
def namedZones : List (List Char × Int) :=
  [(['A', 'C', 'D', 'T'], 37800),
   (['A', 'C', 'S', 'T'], 34200),
   (['A', 'C', 'T'], -18000),
   (['A', 'C', 'W', 'D', 'T'], 35100),
   (['A', 'C', 'W', 'S', 'T'], 31500),
   (['A', 'D', 'D', 'T'], -7200),
   (['A', 'D', 'M', 'T'], 9300),
   (['A', 'D', 'T'], -10800),
   (['A', 'E', 'D', 'T'], 39600),
   (['A', 'E', 'S', 'T'], 36000),
   (['A', 'F', 'T'], 16200),
   (['A', 'H', 'D', 'T'], -32400),
   (['A', 'H', 'S', 'T'], -36000),
   (['A', 'K', 'D', 'T'], -28800),
   (['A', 'K', 'S', 'T'], -32400),
   (['A', 'K', 'T', 'S', 'T'], 21600),
   (['A', 'K', 'T', 'T'], 18000),
   (['A', 'L', 'M', 'S', 'T'], 25200),
   (['A', 'L', 'M', 'T'], 21600),
   (['A', 'M', 'S', 'T'], 18000),
   (['A', 'M', 'T'], 14400),
   (['A', 'N', 'A', 'S', 'T'], 43200),
   (['A', 'N', 'A', 'T'], 43200),
   (['A', 'N', 'T'], -16200),
   (['A', 'P', 'T'], -10800),
   (['A', 'Q', 'T', 'S', 'T'], 21600),
   (['A', 'Q', 'T', 'T'], 18000),
   (['A', 'R', 'S', 'T'], -10800),
   (['A', 'R', 'T'], -10800),
   (['A', 'S', 'H', 'S', 'T'], 21600),
   (['A', 'S', 'H', 'T'], 18000),
   (['A', 'S', 'T'], -14400),
   (['A', 'W', 'D', 'T'], 32400),
   (['A', 'W', 'S', 'T'], 28800),
   (['A', 'W', 'T'], -10800),
   (['A', 'Z', 'O', 'M', 'T'], 0),
   (['A', 'Z', 'O', 'S', 'T'], -3600),
   (['A', 'Z', 'O', 'T'], -3600),
   (['A', 'Z', 'S', 'T'], 18000),
   (['A', 'Z', 'T'], 14400),
   (['B', 'A', 'K', 'S', 'T'], 14400),
   (['B', 'A', 'K', 'T'], 10800),
   (['B', 'D', 'S', 'T'], 7200),
   (['B', 'D', 'T'], 28800),
   (['B', 'E', 'A', 'T'], 9000),
   (['B', 'E', 'A', 'U', 'T'], 9900),
   (['B', 'I', 'O', 'T'], 21600),
   (['B', 'M', 'T'], 1800),
   (['B', 'N', 'T'], 28800),
   (['B', 'O', 'R', 'T'], 28800),
   (['B', 'O', 'S', 'T'], -12780),
   (['B', 'O', 'T'], -14400),
   (['B', 'R', 'S', 'T'], -7200),
   (['B', 'R', 'T'], -10800),
   (['B', 'S', 'T'], 39600),
   (['B', 'T', 'T'], 21600),
   (['B', 'U', 'R', 'T'], 23400),
   (['C', 'A', 'N', 'T'], -3600),
   (['C', 'A', 'P', 'T'], -32400),
   (['C', 'A', 'S', 'T'], 10800),
   (['C', 'A', 'T'], 7200),
   (['C', 'A', 'W', 'T'], -32400),
   (['C', 'C', 'T'], 23400),
   (['C', 'D', 'D', 'T'], -14400),
   (['C', 'D', 'T'], -18000),
   (['C', 'E', 'D', 'T'], 7200),
   (['C', 'E', 'M', 'T'], 10800),
   (['C', 'E', 'S', 'T'], 7200),
   (['C', 'E', 'T'], 3600),
   (['C', 'G', 'S', 'T'], -3600),
   (['C', 'G', 'T'], -7200),
   (['C', 'H', 'A', 'D', 'T'], 49500),
   (['C', 'H', 'A', 'S', 'T'], 45900),
   (['C', 'H', 'D', 'T'], -19800),
   (['C', 'H', 'O', 'S', 'T'], 36000),
   (['C', 'H', 'O', 'T'], 28800),
   (['C', 'I', 'S', 'T'], -28800),
   (['C', 'K', 'H', 'S', 'T'], -34200),
   (['C', 'K', 'T'], -36000),
   (['C', 'L', 'S', 'T'], -10800),
   (['C', 'L', 'T'], -14400),
   (['C', 'M', 'T'], -16080),
   (['C', 'O', 'S', 'T'], -14400),
   (['C', 'O', 'T'], -18000),
   (['C', 'P', 'T'], -18000),
   (['C', 'S', 'T'], -21600),
   (['C', 'U', 'T'], 8400),
   (['C', 'V', 'S', 'T'], -3600),
   (['C', 'V', 'T'], -3600),
   (['C', 'W', 'T'], -18000),
   (['C', 'X', 'T'], 25200),
   (['C', 'h', 'S', 'T'], 36000),
   (['D', 'A', 'C', 'T'], 21600),
   (['D', 'A', 'V', 'T'], 25200),
   (['D', 'D', 'U', 'T'], 36000),
   (['D', 'F', 'T'], 3600),
   (['D', 'M', 'T'], -1500),
   (['D', 'U', 'S', 'S', 'T'], 21600),
   (['D', 'U', 'S', 'T'], 21600),
   (['E', 'A', 'S', 'S', 'T'], -18000),
   (['E', 'A', 'S', 'T'], -21600),
   (['E', 'A', 'T'], 10800),
   (['E', 'C', 'T'], -18000),
   (['E', 'D', 'D', 'T'], -10800),
   (['E', 'D', 'T'], -14400),
   (['E', 'E', 'D', 'T'], 10800),
   (['E', 'E', 'S', 'T'], 10800),
   (['E', 'E', 'T'], 7200),
   (['E', 'G', 'S', 'T'], 0),
   (['E', 'G', 'T'], -3600),
   (['E', 'H', 'D', 'T'], -16200),
   (['E', 'M', 'T'], -26220),
   (['E', 'P', 'T'], -14400),
   (['E', 'S', 'T'], -18000),
   (['E', 'T'], -18000),
   (['E', 'W', 'T'], -14400),
   (['F', 'E', 'T'], 10800),
   (['F', 'F', 'M', 'T'], -14640),
   (['F', 'J', 'S', 'T'], 46800),
   (['F', 'J', 'T'], 43200),
   (['F', 'K', 'S', 'T'], -10800),
   (['F', 'K', 'T'], -14400),
   (['F', 'M', 'T'], -4080),
   (['F', 'N', 'S', 'T'], -3600),
   (['F', 'N', 'T'], -7200),
   (['F', 'O', 'R', 'T'], 14400),
   (['F', 'R', 'U', 'S', 'T'], 25200),
   (['F', 'R', 'U', 'T'], 18000),
   (['G', 'A', 'L', 'T'], -21600),
   (['G', 'A', 'M', 'T'], -32400),
   (['G', 'B', 'G', 'T'], -13500),
   (['G', 'E', 'S', 'T'], 14400),
   (['G', 'E', 'T'], 14400),
   (['G', 'F', 'T'], -10800),
   (['G', 'H', 'S', 'T'], 1200),
   (['G', 'I', 'L', 'T'], 43200),
   (['G', 'I', 'T'], -32400),
   (['G', 'M', 'T'], 0),
   (['G', 'S', 'T'], 14400),
   (['G', 'Y', 'T'], -14400),
   (['H', 'A', 'A'], -10800),
   (['H', 'A', 'C'], -18000),
   (['H', 'A', 'D', 'T'], -32400),
   (['H', 'A', 'E'], -14400),
   (['H', 'A', 'P'], -25200),
   (['H', 'A', 'R'], -21600),
   (['H', 'A', 'S', 'T'], -36000),
   (['H', 'A', 'T'], -9000),
   (['H', 'A', 'Y'], -28800),
   (['H', 'D', 'T'], -34200),
   (['H', 'K', 'S', 'T'], 32400),
   (['H', 'K', 'T'], 28800),
   (['H', 'L', 'V'], -16200),
   (['H', 'M', 'T'], 18000),
   (['H', 'N', 'A'], -14400),
   (['H', 'N', 'C'], -21600),
   (['H', 'N', 'E'], -18000),
   (['H', 'N', 'P'], -28800),
   (['H', 'N', 'R'], -25200),
   (['H', 'N', 'T'], -12600),
   (['H', 'N', 'Y'], -32400),
   (['H', 'O', 'V', 'S', 'T'], 28800),
   (['H', 'O', 'V', 'T'], 25200),
   (['H', 'S', 'T'], -36000),
   (['I', 'C', 'T'], 25200),
   (['I', 'D', 'D', 'T'], 14400),
   (['I', 'D', 'T'], 10800),
   (['I', 'H', 'S', 'T'], 21600),
   (['I', 'M', 'T'], 7020),
   (['I', 'O', 'T'], 21600),
   (['I', 'R', 'D', 'T'], 16200),
   (['I', 'R', 'K', 'S', 'T'], 32400),
   (['I', 'R', 'K', 'T'], 28800),
   (['I', 'R', 'S', 'T'], 12600),
   (['I', 'S', 'S', 'T'], 0),
   (['I', 'S', 'T'], 7200),
   (['J', 'A', 'V', 'T'], 26400),
   (['J', 'C', 'S', 'T'], 32400),
   (['J', 'D', 'T'], 36000),
   (['J', 'M', 'T'], 8460),
   (['J', 'S', 'T'], 32400),
   (['J', 'W', 'S', 'T'], 28800),
   (['K', 'A', 'R', 'T'], 18000),
   (['K', 'D', 'T'], 32400),
   (['K', 'G', 'S', 'T'], 21600),
   (['K', 'G', 'T'], 21600),
   (['K', 'I', 'Z', 'S', 'T'], 21600),
   (['K', 'I', 'Z', 'T'], 18000),
   (['K', 'M', 'T'], 5760),
   (['K', 'O', 'S', 'T'], 39600),
   (['K', 'R', 'A', 'S', 'T'], 28800),
   (['K', 'R', 'A', 'T'], 25200),
   (['K', 'S', 'T'], 32400),
   (['K', 'U', 'Y', 'S', 'T'], 18000),
   (['K', 'U', 'Y', 'T'], 14400),
   (['K', 'W', 'A', 'T'], -43200),
   (['L', 'H', 'D', 'T'], 39600),
   (['L', 'H', 'S', 'T'], 37800),
   (['L', 'I', 'N', 'T'], 50400),
   (['L', 'K', 'T'], 23400),
   (['L', 'M', 'T'], -20160),
   (['L', 'R', 'T'], -2640),
   (['L', 'S', 'T'], 9420),
   (['M', 'A', 'D', 'M', 'T'], 3600),
   (['M', 'A', 'D', 'S', 'T'], 0),
   (['M', 'A', 'D', 'T'], -3600),
   (['M', 'A', 'G', 'S', 'T'], 43200),
   (['M', 'A', 'G', 'T'], 39600),
   (['M', 'A', 'L', 'S', 'T'], 26400),
   (['M', 'A', 'L', 'T'], 27000),
   (['M', 'A', 'R', 'T'], -34200),
   (['M', 'A', 'W', 'T'], 18000),
   (['M', 'D', 'D', 'T'], -18000),
   (['M', 'D', 'S', 'T'], 16260),
   (['M', 'D', 'T'], -21600),
   (['M', 'E', 'S', 'T'], 7200),
   (['M', 'E', 'S', 'Z'], 7200),
   (['M', 'E', 'T'], 3600),
   (['M', 'E', 'Z'], 3600),
   (['M', 'H', 'T'], 43200),
   (['M', 'I', 'S', 'T'], 39600),
   (['M', 'I', 'T'], -34200),
   (['M', 'M', 'T'], 23400),
   (['M', 'O', 'S', 'T'], 32400),
   (['M', 'O', 'T'], 28800),
   (['M', 'P', 'T'], -21600),
   (['M', 'S', 'D'], 14400),
   (['M', 'S', 'K'], 10800),
   (['M', 'S', 'M'], 18000),
   (['M', 'S', 'T'], -25200),
   (['M', 'U', 'S', 'T'], 18000),
   (['M', 'U', 'T'], 14400),
   (['M', 'V', 'T'], 18000),
   (['M', 'W', 'T'], -21600),
   (['M', 'Y', 'T'], 28800),
   (['N', 'C', 'S', 'T'], 43200),
   (['N', 'C', 'T'], 39600),
   (['N', 'D', 'D', 'T'], -5400),
   (['N', 'D', 'T'], -9000),
   (['N', 'E', 'G', 'T'], -12600),
   (['N', 'E', 'S', 'T'], 4800),
   (['N', 'E', 'T'], 1200),
   (['N', 'F', 'T'], 41400),
   (['N', 'M', 'T'], 40320),
   (['N', 'O', 'V', 'S', 'T'], 25200),
   (['N', 'O', 'V', 'T'], 21600),
   (['N', 'P', 'T'], 20700),
   (['N', 'R', 'T'], 41400),
   (['N', 'S', 'T'], -12600),
   (['N', 'T'], -12600),
   (['N', 'U', 'T'], -39600),
   (['N', 'W', 'T'], -36000),
   (['N', 'Z', 'D', 'T'], 46800),
   (['N', 'Z', 'M', 'T'], 41400),
   (['N', 'Z', 'S', 'T'], 43200),
   (['O', 'M', 'S', 'S', 'T'], 25200),
   (['O', 'M', 'S', 'T'], 21600),
   (['O', 'R', 'A', 'S', 'T'], 18000),
   (['O', 'R', 'A', 'T'], 18000),
   (['P', 'D', 'D', 'T'], -21600),
   (['P', 'D', 'T'], -25200),
   (['P', 'E', 'S', 'T'], -14400),
   (['P', 'E', 'T'], -18000),
   (['P', 'E', 'T', 'S', 'T'], 43200),
   (['P', 'E', 'T', 'T'], 43200),
   (['P', 'G', 'T'], 36000),
   (['P', 'H', 'O', 'T'], 46800),
   (['P', 'H', 'S', 'T'], 32400),
   (['P', 'H', 'T'], 28800),
   (['P', 'K', 'S', 'T'], 21600),
   (['P', 'K', 'T'], 18000),
   (['P', 'L', 'M', 'T'], 25620),
   (['P', 'M', 'D', 'T'], -7200),
   (['P', 'M', 'M', 'T'], 35340),
   (['P', 'M', 'S', 'T'], -10800),
   (['P', 'M', 'T'], 540),
   (['P', 'N', 'T'], -30600),
   (['P', 'O', 'N', 'T'], 39600),
   (['P', 'P', 'M', 'T'], -17340),
   (['P', 'P', 'T'], -25200),
   (['P', 'S', 'T'], -28800),
   (['P', 'T'], -28800),
   (['P', 'W', 'T'], -25200),
   (['P', 'Y', 'S', 'T'], -10800),
   (['P', 'Y', 'T'], -14400),
   (['Q', 'M', 'T'], -18840),
   (['Q', 'Y', 'Z', 'S', 'T'], 25200),
   (['Q', 'Y', 'Z', 'T'], 21600),
   (['R', 'E', 'T'], 14400),
   (['R', 'M', 'T'], 3000),
   (['R', 'O', 'T', 'T'], -10800),
   (['S', 'A', 'K', 'S', 'T'], 43200),
   (['S', 'A', 'K', 'T'], 39600),
   (['S', 'A', 'M', 'T'], 14400),
   (['S', 'A', 'S', 'T'], 7200),
   (['S', 'B', 'T'], 39600),
   (['S', 'C', 'T'], 14400),
   (['S', 'D', 'M', 'T'], -16800),
   (['S', 'D', 'T'], -36000),
   (['S', 'E', '\u010c'], 3600),
   (['S', 'E', 'T'], 3600),
   (['S', 'E', 'L', '\u010c'], 7200),
   (['S', 'G', 'T'], 28800),
   (['S', 'H', 'E', 'S', 'T'], 21600),
   (['S', 'H', 'E', 'T'], 18000),
   (['S', 'J', 'M', 'T'], -20160),
   (['S', 'L', 'T'], 19800),
   (['S', 'M', 'T'], -13860),
   (['S', 'R', 'E', 'T'], 39600),
   (['S', 'R', 'T'], -10800),
   (['S', 'S', 'T'], -39600),
   (['S', 'T', 'A', 'T'], 10800),
   (['S', 'V', 'E', 'S', 'T'], 21600),
   (['S', 'V', 'E', 'T'], 14400),
   (['S', 'W', 'A', 'T'], 5400),
   (['S', 'Y', 'O', 'T'], 10800),
   (['T', 'A', 'H', 'T'], -36000),
   (['T', 'A', 'S', 'S', 'T'], 25200),
   (['T', 'A', 'S', 'T'], 21600),
   (['T', 'B', 'I', 'S', 'T'], 18000),
   (['T', 'B', 'I', 'T'], 10800),
   (['T', 'B', 'M', 'T'], 10740),
   (['T', 'F', 'T'], 18000),
   (['T', 'H', 'A'], 25200),
   (['T', 'J', 'T'], 18000),
   (['T', 'K', 'T'], -39600),
   (['T', 'L', 'T'], 32400),
   (['T', 'M', 'T'], 18000),
   (['T', 'O', 'S', 'T'], 50400),
   (['T', 'O', 'T'], 46800),
   (['T', 'R', 'S', 'T'], 14400),
   (['T', 'R', 'T'], 10800),
   (['T', 'S', 'A', 'T'], 10800),
   (['T', 'V', 'T'], 43200),
   (['U', 'L', 'A', 'S', 'T'], 32400),
   (['U', 'L', 'A', 'T'], 28800),
   (['U', 'R', 'A', 'S', 'T'], 18000),
   (['U', 'R', 'A', 'T'], 18000),
   (['U', 'T'], 0),
   (['U', 'T', 'C'], 0),
   (['U', 'Y', 'H', 'S', 'T'], -9000),
   (['U', 'Y', 'S', 'T'], -7200),
   (['U', 'Y', 'T'], -10800),
   (['U', 'Z', 'S', 'T'], 21600),
   (['U', 'Z', 'T'], 18000),
   (['V', 'E', '\u010c'], 7200),
   (['V', 'E', 'T'], -16200),
   (['V', 'L', 'A', 'S', 'T'], 39600),
   (['V', 'L', 'A', 'T'], 36000),
   (['V', 'O', 'L', 'S', 'T'], 14400),
   (['V', 'O', 'L', 'T'], 14400),
   (['V', 'O', 'S', 'T'], 21600),
   (['V', 'U', 'S', 'T'], 43200),
   (['V', 'U', 'T'], 39600),
   (['W', 'A', 'R', 'S', 'T'], -10800),
   (['W', 'A', 'R', 'T'], -14400),
   (['W', 'A', 'S', 'T'], 7200),
   (['W', 'A', 'T'], 3600),
   (['W', 'D', 'T'], 32400),
   (['W', 'E', 'D', 'T'], 3600),
   (['W', 'E', 'M', 'T'], 7200),
   (['W', 'E', 'S', 'T'], 3600),
   (['W', 'E', 'T'], 0),
   (['W', 'F', 'T'], 43200),
   (['W', 'G', 'S', 'T'], -7200),
   (['W', 'G', 'T'], -10800),
   (['W', 'I', 'B'], 25200),
   (['W', 'I', 'T'], 32400),
   (['W', 'I', 'T', 'A'], 28800),
   (['W', 'M', 'T'], 5040),
   (['W', 'S', 'D', 'T'], 50400),
   (['W', 'S', 'S', 'T'], 46800),
   (['W', 'S', 'T'], 28800),
   (['W', 'T'], 0),
   (['X', 'J', 'T'], 21600),
   (['Y', 'A', 'K', 'S', 'T'], 36000),
   (['Y', 'A', 'K', 'T'], 32400),
   (['Y', 'A', 'P', 'T'], 36000),
   (['Y', 'D', 'D', 'T'], -25200),
   (['Y', 'D', 'T'], -28800),
   (['Y', 'E', 'K', 'S', 'T'], 21600),
   (['Y', 'E', 'K', 'T'], 18000),
   (['Y', 'E', 'R', 'S', 'T'], 14400),
   (['Y', 'E', 'R', 'T'], 10800),
   (['Y', 'P', 'T'], -28800),
   (['Y', 'S', 'T'], -32400),
   (['Y', 'W', 'T'], -28800),
   (['z', 'z', 'z'], 0),
   (['Z'], 0),
   (['Z', 'E', '\u010c'], 0)]

end Verif.Data
