import Verif.Bankinfo.Model

/-
The bank table of /repo/bankinfo/data.go, written by tools/banktable.py: all entries, in their order.
-/

namespace Verif.Bankinfo

/-- The URLs of /repo/bankinfo/data.go:5-36456, each once. -/
def urls : List Str :=
  [c!"https://hbci.postbank.de/banking/hbci.do",
   c!"https://www.bv-activebanking.de/hbciTunnel/hbciTransfer.jsp",
   c!"https://hbci-01.hypovereinsbank.de/bank/hbci",
   c!"https://www.warburg-bank.de/fints",
   c!"https://fints2.atruvia.de/cgi-bin/hbciservlet",
   c!"",
   c!"https://banking-be3.s-fints-pt-be.de/fints30",
   c!"https://fints.deutsche-bank.de/",
   c!"https://fints.norisbank.de/",
   c!"https://banking-bb6.s-fints-pt-bb.de/fints30",
   c!"https://konto.biw-bank.de/hbci/",
   c!"https://banking-dkb.s-fints-pt-dkb.de/fints30",
   c!"https://banking-mv6.s-fints-pt-mv.de/fints30",
   c!"https://fints1.atruvia.de/cgi-bin/hbciservlet",
   c!"https://online-banking.marcard.de/fints/",
   c!"https://fints.comdirect.de/fints",
   c!"https://banking-hh7.s-fints-pt-hh.de/fints30",
   c!"https://banking.netbank.de/hbci",
   c!"https://banking-ni3.s-fints-pt-ni.de/fints30",
   c!"https://homebanking.hsh-nordbank-banking.de/tristan/hbci",
   c!"https://banking-sh1.s-fints-pt-sh.de/fints30",
   c!"https://banking-sh2.s-fints-pt-sh.de/fints30",
   c!"https://banking-ni1.s-fints-pt-ni.de/fints30",
   c!"https://banking-li1.s-fints-pt-li.de/fints30",
   c!"https://banking-ni4.s-fints-pt-ni.de/fints30",
   c!"https://banking-ni2.s-fints-pt-ni.de/fints30",
   c!"https://banking.seeligerbank.de/eBankingProxy/",
   c!"https://hbci.olb.de",
   c!"https://hbci.neelmeyer.de",
   c!"https://banking-hb6.s-fints-pt-hb.de/fints30",
   c!"https:// banking.ikb.de/eBankingFinTS/",
   c!"https://fints.targobank.de/travicretail_fints30pintanbroker/FinTs30PinTanHttpGate",
   c!"https://banking-rl1.s-fints-pt-rl.de/fints30",
   c!"https://fints.apobank.de/FinTs30PinTanHttpGate",
   c!"https://banking-rl2.s-fints-pt-rl.de/fints30",
   c!"https://banking-rl5.s-fints-pt-rl.de/fints30",
   c!"https://hbci.akf24.de",
   c!"https://banking-rl3.s-fints-pt-rl.de/fints30",
   c!"https://fints.bankingonline.de/fints/FinTs30PinTanHttpGate",
   c!"https://banking-rl4.s-fints-pt-rl.de/fints30",
   c!"https://banking-rl7.s-fints-pt-rl.de/fints30",
   c!"https://banking-rl6.s-fints-pt-rl.de/fints30",
   c!"https://banking-wl6.s-fints-pt-wl.de/fints30",
   c!"https://banking-wl5.s-fints-pt-wl.de/fints30",
   c!"https://banking-wl1.s-fints-pt-wl.de/fints30",
   c!"https://banking-wl2.s-fints-pt-wl.de/fints30",
   c!"https://banking-wl3.s-fints-pt-wl.de/fints30",
   c!"https://banking-wl4.s-fints-pt-wl.de/fints30",
   c!"https://banking-wl7.s-fints-pt-wl.de/fints30",
   c!"https://fints.ing-diba.de/fints/",
   c!"https://fints.degussa-bank.de",
   c!"https://banking-hs6.s-fints-pt-hs.de/fints30",
   c!"https://fints.1822direkt.com/fints/hbci",
   c!"https://banking-hs3.s-fints-pt-hs.de/fints30",
   c!"https://banking-hs1.s-fints-pt-hs.de/fints30",
   c!"https://banking-hs4.s-fints-pt-hs.de/fints30",
   c!"https://banking-hs2.s-fints-pt-hs.de/fints30",
   c!"https://banking-hs7.s-fints-pt-hs.de/fints30",
   c!"https://banking-rp3.s-fints-pt-rp.de/fints30",
   c!"https://banking-rp4.s-fints-pt-rp.de/fints30",
   c!"https://banking-rp1.s-fints-pt-rp.de/fints30",
   c!"https://banking-li2.s-fints-pt-li.de/fints30",
   c!"https://banking-sl2.s-fints-pt-sl.de/fints30",
   c!"https://banking-li4.s-fints-pt-li.de/fints30",
   c!"https://banking-bw6.s-fints-pt-bw.de/fints30",
   c!"https://banking-bw5.s-fints-pt-bw.de/fints30",
   c!"https://fints.wuestenrot.de",
   c!"https://banking-bw4.s-fints-pt-bw.de/fints30",
   c!"https://banking-bw3.s-fints-pt-bw.de/fints30",
   c!"https://banking-bw1.s-fints-pt-bw.de/fints30",
   c!"https://banking-bw2.s-fints-pt-bw.de/fints30",
   c!"https://fints.paycenter.de",
   c!"https://hbciplus.sperrer.de",
   c!"https://fints.baaderbank.de",
   c!"https://banking-by2.s-fints-pt-by.de/fints30",
   c!"https://banking-by3.s-fints-pt-by.de/fints30",
   c!"https://brokerage-hbci.consorsbank.de/hbci",
   c!"https://banking-by6.s-fints-pt-by.de/fints30",
   c!"https://banking.aab.de/hbci",
   c!"https://banking-by5.s-fints-pt-by.de/fints30",
   c!"https://banking-by4.s-fints-pt-by.de/fints30",
   c!"https://banking-by1.s-fints-pt-by.de/fints30",
   c!"https://banking-by7.s-fints-pt-by.de/fints30",
   c!"https://banking-st5.s-fints-pt-st.de/fints30",
   c!"https://banking-th5.s-fints-pt-th.de/fints30",
   c!"https://banking-sn5.s-fints-pt-sn.de/fints30",
   c!"https://banking-sn4.s-fints-pt-sn.de/fints30"]

/-- The pairs of `VersionNumber` and `VersionName` there, each once. -/
def kinds : List (Str × Str) :=
  [(c!"", c!"FinTS V3.0"),
   (c!"3.0", c!"FinTS V3.0"),
   (c!"3.0", c!""),
   (c!"", c!""),
   (c!"3.0", c!"FinTS V4.0"),
   (c!"2.1", c!""),
   (c!"2.2", c!"")]

/-- An entry: the bank ID as a number, URL and versions by their place in `urls` and `kinds`. -/
structure Row where
  id : Nat
  url : Nat
  kind : Nat
  deriving DecidableEq

/-- A number of eight digits. -/
def digits (n : Nat) : Str :=
  [n / 10000000, n / 1000000, n / 100000, n / 10000, n / 1000, n / 100, n / 10, n].map fun k => Char.ofNat (48 + k % 10)

/-- The entry.  Simplification: `BIC`, `Institute`, `City` and `LastChanged` are left out. -/
def Row.info (r : Row) : BankInfo :=
  { bankID := digits r.id, url := urls.getD r.url [], versionNumber := (kinds.getD r.kind ([], [])).1,
    versionName := (kinds.getD r.kind ([], [])).2 }

private abbrev r (a b c : Nat) : Row := ⟨a, b, c⟩

/-- Entries 1 to 300 of /repo/bankinfo/data.go. -/
def rows0 : List Row := [
  r 10010010 0 0, r 10020200 1 1, r 10020890 2 1, r 10020890 2 1, r 10020890 2 1, r 10020890 2 1, r 10020890 2 1, r 10020890 2 1,
  r 10030500 3 1, r 10030600 4 1, r 10030700 4 1, r 10033300 5 2, r 10040000 5 2, r 10050000 6 0, r 10070000 7 1, r 10070024 7 1,
  r 10070100 7 1, r 10070124 7 1, r 10077777 8 0, r 10090000 4 1, r 10090900 4 0, r 10120100 9 0, r 10130600 1 0, r 10130800 10 1,
  r 12030000 11 0, r 12030000 11 0, r 12030900 1 1, r 12040000 5 2, r 12070000 7 1, r 12070000 7 1, r 12070000 7 1, r 12070000 7 1,
  r 12070000 7 1, r 12070000 7 1, r 12070000 7 1, r 12070000 7 1, r 12070000 7 1, r 12070000 7 1, r 12070000 7 1, r 12070000 7 1,
  r 12070000 7 1, r 12070000 7 1, r 12070000 7 1, r 12070000 7 1, r 12070000 7 1, r 12070000 7 1, r 12070000 7 1, r 12070000 7 1,
  r 12070000 7 1, r 12070000 7 1, r 12070000 7 1, r 12070000 7 1, r 12070000 7 1, r 12070000 7 1, r 12070000 7 1, r 12070000 7 1,
  r 12070000 7 1, r 12070000 7 1, r 12070000 7 1, r 12070000 7 1, r 12070000 7 1, r 12070000 7 1, r 12070000 7 1, r 12070000 7 1,
  r 12070000 7 1, r 12070000 7 1, r 12070024 7 1, r 12070024 7 1, r 12070024 7 1, r 12070024 7 1, r 12070024 7 1, r 12070024 7 1,
  r 12070024 7 1, r 12070024 7 1, r 12070024 7 1, r 12070024 7 1, r 12070024 7 1, r 12070024 7 1, r 12070024 7 1, r 12070024 7 1,
  r 12070024 7 1, r 12070024 7 1, r 12070024 7 1, r 12070024 7 1, r 12070024 7 1, r 12070024 7 1, r 12070024 7 1, r 12070024 7 1,
  r 12070024 7 1, r 12070024 7 1, r 12070024 7 1, r 12070024 7 1, r 12070024 7 1, r 12070024 7 1, r 12070024 7 1, r 12070024 7 1,
  r 12070024 7 1, r 12070024 7 1, r 12070024 7 1, r 12070024 7 1, r 12070024 7 1, r 12070024 7 1, r 12070024 7 1, r 12070024 7 1,
  r 12096597 4 1, r 13040000 5 2, r 13040000 5 2, r 13040000 5 2, r 13050000 12 0, r 13070000 7 1, r 13070000 7 1, r 13070000 7 1,
  r 13070000 7 1, r 13070000 7 1, r 13070000 7 1, r 13070000 7 1, r 13070000 7 1, r 13070000 7 1, r 13070000 7 1, r 13070000 7 1,
  r 13070000 7 1, r 13070000 7 1, r 13070000 7 1, r 13070000 7 1, r 13070000 7 1, r 13070000 7 1, r 13070000 7 1, r 13070000 7 1,
  r 13070000 7 1, r 13070000 7 1, r 13070000 7 1, r 13070000 7 1, r 13070000 7 1, r 13070000 7 1, r 13070000 7 1, r 13070000 7 1,
  r 13070000 7 1, r 13070000 7 1, r 13070000 7 1, r 13070000 7 1, r 13070000 7 1, r 13070000 7 1, r 13070000 7 1, r 13070000 7 1,
  r 13070024 7 1, r 13070024 7 1, r 13070024 7 1, r 13070024 7 1, r 13070024 7 1, r 13070024 7 1, r 13070024 7 1, r 13070024 7 1,
  r 13070024 7 1, r 13070024 7 1, r 13070024 7 1, r 13070024 7 1, r 13070024 7 1, r 13070024 7 1, r 13070024 7 1, r 13070024 7 1,
  r 13070024 7 1, r 13070024 7 1, r 13070024 7 1, r 13070024 7 1, r 13070024 7 1, r 13070024 7 1, r 13070024 7 1, r 13070024 7 1,
  r 13070024 7 1, r 13070024 7 1, r 13070024 7 1, r 13070024 7 1, r 13070024 7 1, r 13070024 7 1, r 13070024 7 1, r 13070024 7 1,
  r 13070024 7 1, r 13070024 7 1, r 13070024 7 1, r 13091054 13 1, r 14051000 12 0, r 14052000 12 0, r 14061308 13 1, r 15050100 12 0,
  r 15050200 12 0, r 15050400 12 0, r 15050500 12 0, r 15051732 12 0, r 15061618 13 1, r 15061618 13 1, r 15091674 13 1, r 15091704 13 1,
  r 16020086 2 1, r 16050000 9 0, r 16050101 9 0, r 16050202 9 0, r 16060122 13 1, r 16061938 13 1, r 16062008 13 1, r 16062073 13 1,
  r 16091994 13 1, r 17020086 2 1, r 17052000 9 0, r 17052302 9 0, r 17054040 9 0, r 17055050 9 0, r 17056060 9 0, r 17062428 13 1,
  r 17092404 13 1, r 18020086 2 1, r 18050000 9 0, r 18051000 9 0, r 18055000 9 0, r 18062678 13 1, r 18092684 13 1, r 18092744 13 1,
  r 20010020 0 0, r 20030000 2 1, r 20030000 2 1, r 20030000 2 1, r 20030000 2 1, r 20030000 2 1, r 20030000 2 1, r 20030000 2 1,
  r 20030000 2 1, r 20030000 2 1, r 20030000 2 1, r 20030000 2 1, r 20030000 2 1, r 20030000 2 1, r 20030000 2 1, r 20030000 2 1,
  r 20030000 2 1, r 20030000 2 1, r 20030000 2 1, r 20030000 2 1, r 20030000 2 1, r 20030000 2 1, r 20030000 2 1, r 20030000 2 1,
  r 20030000 2 1, r 20030000 2 1, r 20030000 2 1, r 20030000 2 1, r 20030000 2 1, r 20030000 2 1, r 20030000 2 1, r 20030000 2 1,
  r 20030000 2 1, r 20030000 2 1, r 20030000 2 1, r 20030000 2 1, r 20030000 2 1, r 20030000 2 1, r 20030000 2 1, r 20030000 2 1,
  r 20030000 2 1, r 20030000 2 1, r 20030000 2 1, r 20030000 2 1, r 20030000 2 1, r 20030000 2 1, r 20030000 2 1, r 20030000 2 1,
  r 20030000 2 1, r 20030000 2 1, r 20030000 2 1, r 20030000 2 1, r 20030000 2 1, r 20030000 2 1, r 20030000 2 1, r 20030000 2 1,
  r 20030000 2 1, r 20030000 2 1, r 20030000 2 1, r 20030000 2 1, r 20030000 2 1, r 20030000 2 1, r 20030000 2 1, r 20030000 2 1,
  r 20030000 2 1, r 20030000 2 1, r 20030000 2 1, r 20030000 2 1, r 20030000 2 1, r 20030000 2 1, r 20030000 2 1, r 20030000 2 1,
  r 20030000 2 1, r 20030000 2 1, r 20030000 2 1, r 20030000 2 1, r 20030000 2 1, r 20030000 2 1, r 20030000 2 1, r 20030000 2 1,
  r 20030000 2 1, r 20030000 2 1, r 20030000 2 1, r 20030000 2 1]

/-- Entries 301 to 600 of /repo/bankinfo/data.go. -/
def rows1 : List Row := [
  r 20030000 2 1, r 20030000 2 1, r 20030000 2 1, r 20030000 2 1, r 20030000 2 1, r 20030000 2 1, r 20030000 2 1, r 20030000 2 1,
  r 20030000 2 1, r 20030300 13 1, r 20030400 14 1, r 20030600 1 1, r 20030700 1 1, r 20041111 15 0, r 20041133 15 0, r 20041144 15 0,
  r 20041155 15 0, r 20041166 15 0, r 20041177 15 0, r 20041188 15 0, r 20041199 15 0, r 20050550 16 0, r 20069144 13 1, r 20069177 13 1,
  r 20069641 13 1, r 20069782 13 1, r 20069800 13 1, r 20069812 13 1, r 20069965 13 1, r 20070000 7 1, r 20070000 7 1, r 20070000 7 1,
  r 20070000 7 1, r 20070000 7 1, r 20070000 7 1, r 20070000 7 1, r 20070000 7 1, r 20070000 7 1, r 20070000 7 1, r 20070000 7 1,
  r 20070000 7 1, r 20070000 7 1, r 20070000 7 1, r 20070000 7 1, r 20070024 7 1, r 20070024 7 1, r 20070024 7 1, r 20070024 7 1,
  r 20070024 7 1, r 20070024 7 1, r 20070024 7 1, r 20070024 7 1, r 20070024 7 1, r 20070024 7 1, r 20070024 7 1, r 20070024 7 1,
  r 20070024 7 1, r 20070024 7 1, r 20070024 7 1, r 20090400 13 1, r 20090500 17 0, r 20090700 13 1, r 20090900 4 0, r 20120100 3 1,
  r 20120600 4 1, r 20130400 4 1, r 20133300 5 2, r 20190003 13 1, r 20190003 13 1, r 20190109 13 1, r 20190800 13 1, r 20230300 4 1,
  r 20230600 1 1, r 20310300 1 1, r 20690500 4 0, r 20750000 18 0, r 21020600 1 1, r 21050000 19 0, r 21050170 20 0, r 21051275 20 0,
  r 21070020 7 1, r 21070020 7 1, r 21070024 7 1, r 21070024 7 1, r 21090007 13 1, r 21092023 13 1, r 21270020 7 1, r 21270024 7 1,
  r 21290016 13 1, r 21352240 21 0, r 21390008 13 1, r 21392218 13 1, r 21450000 20 0, r 21464671 13 1, r 21510600 1 1, r 21520100 13 1,
  r 21570011 7 1, r 21570011 7 1, r 21570024 7 1, r 21570024 7 1, r 21690020 13 1, r 21750000 20 0, r 21762550 13 1, r 21763542 13 1,
  r 21770011 7 1, r 21770024 7 1, r 21791805 13 1, r 21791906 13 1, r 21890022 13 1, r 22150000 20 0, r 22151730 21 0, r 22163114 13 1,
  r 22191405 13 1, r 22191405 13 1, r 22250020 21 0, r 23050101 21 0, r 23051030 21 0, r 23051030 5 3, r 23052750 20 0, r 23061220 13 1,
  r 23063129 13 1, r 23064107 13 1, r 23070700 7 1, r 23070700 7 1, r 23070700 7 1, r 23070700 7 1, r 23070700 7 1, r 23070700 7 1,
  r 23070700 7 1, r 23070700 7 1, r 23070700 7 1, r 23070700 7 1, r 23070700 7 1, r 23070700 7 1, r 23070700 7 1, r 23070700 7 1,
  r 23070710 7 1, r 23090142 13 1, r 24050110 18 0, r 24060300 4 1, r 24070024 7 1, r 24070024 7 1, r 24070075 7 1, r 24070075 7 1,
  r 24121000 13 1, r 24150001 22 0, r 24151005 18 0, r 24151116 18 0, r 24151235 22 0, r 24162898 13 1, r 24191015 13 1, r 25010030 0 0,
  r 25010900 13 1, r 25040066 5 2, r 25050000 23 0, r 25050180 24 0, r 25060180 3 1, r 25069262 13 1, r 25070024 7 1, r 25070024 7 1,
  r 25070024 7 1, r 25070024 7 1, r 25070024 7 1, r 25070024 7 1, r 25070024 7 1, r 25070024 7 1, r 25070024 7 1, r 25070024 7 1,
  r 25070066 7 1, r 25070070 7 1, r 25070070 7 1, r 25070070 7 1, r 25070070 7 1, r 25070070 7 1, r 25070077 7 1, r 25070084 7 1,
  r 25070084 7 1, r 25070086 7 1, r 25090500 4 0, r 25090900 4 0, r 25151270 25 0, r 25151371 25 0, r 25152375 18 0, r 25152490 25 0,
  r 25190001 4 1, r 25193331 4 1, r 25450110 25 0, r 25451345 25 0, r 25462160 13 1, r 25462680 13 1, r 25470024 7 1, r 25470024 7 1,
  r 25470073 7 1, r 25471024 7 1, r 25471073 7 1, r 25551480 25 0, r 25591413 13 1, r 25650106 18 0, r 25651325 22 0, r 25691633 13 1,
  r 25770024 7 1, r 25770069 7 1, r 25791635 4 1, r 25850110 18 0, r 25851660 18 0, r 25862292 13 1, r 25863489 13 1, r 25940033 5 2,
  r 25950130 25 0, r 25970024 7 1, r 25970074 7 1, r 25971024 7 1, r 25971024 7 1, r 25971071 7 1, r 25971071 7 1, r 26040030 5 2,
  r 26050001 25 0, r 26051260 25 0, r 26061556 13 1, r 26062433 13 1, r 26070024 7 1, r 26070024 7 1, r 26070072 7 1, r 26070072 7 1,
  r 26240039 5 2, r 26240039 5 2, r 26250001 25 0, r 26251425 25 0, r 26261693 13 1, r 26271424 7 1, r 26271471 7 1, r 26340056 5 2,
  r 26341072 5 2, r 26351015 25 0, r 26540070 5 2, r 26540070 5 2, r 26550105 18 0, r 26551540 18 0, r 26552286 18 0, r 26562490 13 1,
  r 26565928 13 1, r 26567943 13 1, r 26567943 13 1, r 26570024 7 1, r 26570024 7 1, r 26570024 7 1, r 26570024 7 1, r 26570024 7 1,
  r 26570024 7 1, r 26570024 7 1, r 26570090 7 1, r 26570090 7 1, r 26570090 7 1, r 26570090 7 1, r 26570090 7 1, r 26570090 7 1,
  r 26570090 7 1, r 26590025 13 1, r 26640049 5 2, r 26640049 5 2, r 26650001 18 0, r 26660060 13 1, r 26661380 13 1, r 26740044 5 2,
  r 26750001 18 0, r 26770024 7 1, r 26770024 7 1, r 26770024 7 1, r 26770024 7 1, r 26770095 7 1, r 26770095 7 1, r 26770095 7 1,
  r 26770095 7 1, r 26840032 5 2, r 26840032 5 2, r 26870024 7 1, r 26870024 7 1, r 26870024 7 1, r 26870032 7 1, r 26870032 7 1,
  r 26870032 7 1, r 26890019 13 1, r 26891484 13 1, r 26941053 5 2, r 26951311 25 0, r 26971024 7 1, r 26971038 7 1, r 26991066 13 1,
  r 26991066 13 1, r 27032500 26 1, r 27040080 5 2, r 27040080 5 2, r 27040080 5 2, r 27040080 5 2, r 27040080 5 2, r 27040080 5 2,
  r 27040080 5 2, r 27062290 13 1, r 27070024 7 1, r 27070024 7 1]

/-- Entries 601 to 900 of /repo/bankinfo/data.go. -/
def rows2 : List Row := [
  r 27070024 7 1, r 27070024 7 1, r 27070024 7 1, r 27070024 7 1, r 27070024 7 1, r 27070024 7 1, r 27070024 7 1, r 27070030 7 1,
  r 27070031 7 1, r 27070034 7 1, r 27070034 7 1, r 27070034 7 1, r 27070041 7 1, r 27070042 7 1, r 27070043 7 1, r 27070079 7 1,
  r 27072524 7 1, r 27072537 7 1, r 27072724 7 1, r 27072736 7 1, r 27090900 4 1, r 27092555 13 1, r 27131300 4 1, r 27240004 5 2,
  r 27893359 13 1, r 27893760 13 1, r 28020050 27 1, r 28030300 27 1, r 28040046 5 2, r 28042865 5 2, r 28050100 22 0, r 28061410 13 1,
  r 28061501 13 1, r 28061679 13 1, r 28061822 13 1, r 28062165 13 1, r 28062249 13 1, r 28062560 13 1, r 28063253 13 1, r 28063526 13 1,
  r 28064179 13 1, r 28065061 13 1, r 28065286 13 1, r 28066103 13 1, r 28066214 13 1, r 28066620 13 1, r 28067257 13 1, r 28068218 13 1,
  r 28069052 13 1, r 28069109 13 1, r 28069381 13 1, r 28069706 13 1, r 28069773 13 1, r 28069878 13 1, r 28069926 13 1, r 28069935 13 1,
  r 28069956 13 1, r 28069956 13 1, r 28069991 13 1, r 28069994 13 1, r 28069994 13 1, r 28070024 7 1, r 28070024 7 1, r 28070057 7 1,
  r 28070057 7 1, r 28240023 5 2, r 28250110 22 0, r 28262254 13 1, r 28262673 13 1, r 28270024 7 1, r 28270024 7 1, r 28270056 7 1,
  r 28270056 7 1, r 28290063 13 1, r 28291551 13 1, r 28350000 22 0, r 28361592 13 1, r 28440037 5 2, r 28450000 22 0, r 28470024 7 1,
  r 28470024 7 1, r 28470024 7 1, r 28470024 7 1, r 28470091 7 1, r 28470091 7 1, r 28470091 7 1, r 28470091 7 1, r 28540034 5 2,
  r 28550000 22 0, r 28562297 13 1, r 28562716 13 1, r 28562863 13 1, r 28563749 13 1, r 28570024 7 1, r 28570024 7 1, r 28570024 7 1,
  r 28570092 7 1, r 28570092 7 1, r 28570092 7 1, r 28590075 13 1, r 28591654 13 1, r 29020000 28 1, r 29020200 13 1, r 29030400 3 1,
  r 29040090 5 2, r 29040090 5 2, r 29040090 5 2, r 29040090 5 2, r 29040090 5 2, r 29040090 5 2, r 29040090 5 2, r 29040090 5 2,
  r 29040090 5 2, r 29040090 5 2, r 29040090 5 2, r 29040090 5 2, r 29040090 5 2, r 29040090 5 2, r 29040090 5 2, r 29040090 5 2,
  r 29040090 5 2, r 29050101 29 0, r 29070024 7 1, r 29070024 7 1, r 29070024 7 1, r 29070024 7 1, r 29070024 7 1, r 29070024 7 1,
  r 29070024 7 1, r 29070024 7 1, r 29070050 7 1, r 29070050 7 1, r 29070050 7 1, r 29070051 7 1, r 29070052 7 1, r 29070058 7 1,
  r 29070059 7 1, r 29070059 7 1, r 29090900 4 0, r 29151700 22 0, r 29152550 22 0, r 29152670 22 0, r 29162394 13 1, r 29162453 13 1,
  r 29165545 13 1, r 29165681 13 1, r 29166568 13 1, r 29167624 13 1, r 29172624 7 1, r 29172655 7 1, r 29190024 13 1, r 29190330 13 1,
  r 29240024 5 2, r 29250000 22 0, r 29262722 13 1, r 29265747 13 1, r 30010444 30 0, r 30010700 1 0, r 30020500 1 4, r 30020900 31 0,
  r 30030880 1 1, r 30030900 1 1, r 30040000 5 2, r 30040000 5 2, r 30040000 5 2, r 30040000 5 2, r 30040000 5 2, r 30040000 5 2,
  r 30040000 5 2, r 30040000 5 2, r 30040000 5 2, r 30050110 32 0, r 30060601 33 1, r 30060992 4 1, r 30070010 7 1, r 30070010 7 1,
  r 30070010 7 1, r 30070010 7 1, r 30070010 7 1, r 30070010 7 1, r 30070010 7 1, r 30070010 7 1, r 30070010 7 1, r 30070024 7 1,
  r 30070024 7 1, r 30070024 7 1, r 30070024 7 1, r 30070024 7 1, r 30070024 7 1, r 30070024 7 1, r 30070024 7 1, r 30070024 7 1,
  r 30130600 1 1, r 30150200 34 0, r 30160213 13 1, r 30220190 2 1, r 30220190 2 1, r 30220190 2 1, r 30220190 2 1, r 30220190 2 1,
  r 30220190 2 1, r 30220190 2 1, r 30351220 34 0, r 30520037 13 0, r 30530000 4 1, r 30530500 13 1, r 30550000 35 0, r 30560548 13 1,
  r 31040015 5 2, r 31040015 5 2, r 31040015 5 2, r 31040015 5 2, r 31050000 32 0, r 31060181 13 1, r 31060517 13 1, r 31060517 13 1,
  r 31070001 7 1, r 31070001 7 1, r 31070001 7 1, r 31070001 7 1, r 31070024 7 1, r 31070024 7 1, r 31070024 7 1, r 31070024 7 1,
  r 31251220 35 0, r 31460290 13 1, r 31470004 7 1, r 31470004 7 1, r 31470004 7 1, r 31470024 7 1, r 31470024 7 1, r 31470024 7 1,
  r 32040024 5 2, r 32040024 5 2, r 32050000 32 0, r 32060362 13 1, r 32061384 13 1, r 32061384 13 1, r 32061414 13 1, r 32070024 7 1,
  r 32070024 7 1, r 32070024 7 1, r 32070024 7 1, r 32070024 7 1, r 32070024 7 1, r 32070024 7 1, r 32070024 7 1, r 32070080 7 1,
  r 32070080 7 1, r 32070080 7 1, r 32070080 7 1, r 32070080 7 1, r 32070080 7 1, r 32070080 7 1, r 32070080 7 1, r 32440023 5 2,
  r 32440023 5 2, r 32440023 5 2, r 32440023 5 2, r 32450000 34 0, r 32460422 13 1, r 32470024 7 1, r 32470024 7 1, r 32470024 7 1,
  r 32470077 7 1, r 32470077 7 1, r 32470077 7 1, r 33020000 36 0, r 33020190 2 1, r 33030000 4 1, r 33040001 5 2, r 33040001 5 2,
  r 33040001 5 2, r 33040001 5 2, r 33040001 5 2, r 33050000 37 0, r 33060592 38 0, r 33070024 7 1, r 33070024 7 1, r 33070024 7 1,
  r 33070024 7 1, r 33070024 7 1, r 33070024 7 1, r 33070024 7 1, r 33070090 7 1, r 33070090 7 1, r 33070090 7 1, r 33070090 7 1,
  r 33070090 7 1, r 33070090 7 1, r 33070090 7 1, r 33440035 5 2, r 33440035 5 2, r 33450000 34 0, r 34040049 5 2, r 34040049 5 2,
  r 34040049 5 2, r 34040049 5 2, r 34050000 37 0, r 34051570 35 0]

/-- Entries 901 to 1200 of /repo/bankinfo/data.go. -/
def rows3 : List Row := [
  r 34060094 13 1, r 34070024 7 1, r 34070024 7 1, r 34070024 7 1, r 34070024 7 1, r 34070024 7 1, r 34070093 7 1, r 34070093 7 1,
  r 34070093 7 1, r 34070093 7 1, r 34070093 7 1, r 34240050 5 2, r 34240050 5 2, r 34250000 37 0, r 34270024 7 1, r 34270024 7 1,
  r 34270094 7 1, r 34270094 7 1, r 35040038 5 2, r 35040038 5 2, r 35050000 39 0, r 35060190 13 1, r 35060386 13 1, r 35070024 7 1,
  r 35070024 7 1, r 35070024 7 1, r 35070024 7 1, r 35070024 7 1, r 35070024 7 1, r 35070030 7 1, r 35070030 7 1, r 35070030 7 1,
  r 35070030 7 1, r 35070030 7 1, r 35070030 7 1, r 35450000 34 0, r 35461106 13 1, r 35640064 5 2, r 35640064 5 2, r 35640064 5 2,
  r 35640064 5 2, r 35650000 34 0, r 35660599 13 1, r 35860245 13 1, r 36010043 0 0, r 36020030 1 1, r 36020186 2 1, r 36020186 2 1,
  r 36033300 5 2, r 36040039 5 2, r 36040039 5 2, r 36040039 5 2, r 36040039 5 2, r 36040039 5 2, r 36040039 5 2, r 36050105 39 0,
  r 36060295 13 1, r 36060488 13 1, r 36060591 38 0, r 36070024 7 1, r 36070050 7 1, r 36240045 5 2, r 36250000 39 0, r 36270024 7 1,
  r 36270048 7 1, r 36540046 5 2, r 36550000 39 0, r 36570024 7 1, r 36570049 7 1, r 37010050 0 0, r 37020090 2 1, r 37020090 2 1,
  r 37030800 1 1, r 37040044 5 2, r 37040044 5 2, r 37040044 5 2, r 37040044 5 2, r 37040044 5 2, r 37040044 5 2, r 37040044 5 2,
  r 37040044 5 2, r 37040044 5 2, r 37040044 5 2, r 37050198 40 0, r 37050299 41 0, r 37060193 13 1, r 37060590 38 0, r 37060993 4 1,
  r 37062124 13 1, r 37062365 13 1, r 37062365 13 1, r 37062600 13 1, r 37062600 13 1, r 37069125 13 1, r 37069252 13 1, r 37069322 13 1,
  r 37069342 13 1, r 37069405 13 1, r 37069412 13 1, r 37069412 13 1, r 37069412 13 1, r 37069427 13 1, r 37069520 13 1, r 37069627 13 1,
  r 37069642 13 1, r 37069720 13 1, r 37069991 13 1, r 37070024 7 1, r 37070024 7 1, r 37070024 7 1, r 37070024 7 1, r 37070024 7 1,
  r 37070024 7 1, r 37070024 7 1, r 37070024 7 1, r 37070024 7 1, r 37070024 7 1, r 37070024 7 1, r 37070024 7 1, r 37070024 7 1,
  r 37070024 7 1, r 37070024 7 1, r 37070024 7 1, r 37070060 7 1, r 37070060 7 1, r 37070060 7 1, r 37070060 7 1, r 37070060 7 1,
  r 37070060 7 1, r 37070060 7 1, r 37070060 7 1, r 37070060 7 1, r 37070060 7 1, r 37070060 7 1, r 37070060 7 1, r 37070060 7 1,
  r 37070060 7 1, r 37070060 7 1, r 37070060 7 1, r 37540050 5 2, r 37551440 35 0, r 37551780 35 0, r 37570024 7 1, r 37570024 7 1,
  r 37570024 7 1, r 37570064 7 1, r 37570064 7 1, r 37570064 7 1, r 38020090 2 1, r 38040007 5 2, r 38040007 5 2, r 38040007 5 2,
  r 38040007 5 2, r 38040007 5 2, r 38040007 5 2, r 38060186 13 1, r 38070024 7 1, r 38070024 7 1, r 38070024 7 1, r 38070024 7 1,
  r 38070024 7 1, r 38070024 7 1, r 38070059 7 1, r 38070059 7 1, r 38070059 7 1, r 38070059 7 1, r 38070059 7 1, r 38070059 7 1,
  r 38070724 7 1, r 38077724 7 1, r 38250110 35 0, r 38260082 13 1, r 38440016 5 2, r 38440016 5 2, r 38440016 5 2, r 38440016 5 2,
  r 38450000 35 0, r 38462135 13 1, r 38470024 7 1, r 38470024 7 1, r 38470024 7 1, r 38470024 7 1, r 38470024 7 1, r 38470091 7 1,
  r 38470091 7 1, r 38470091 7 1, r 38470091 7 1, r 38470091 7 1, r 38621500 13 1, r 39040013 5 2, r 39040013 5 2, r 39040013 5 2,
  r 39040013 5 2, r 39040013 5 2, r 39040013 5 2, r 39040013 5 2, r 39050000 37 0, r 39060180 13 1, r 39070020 7 1, r 39070020 7 1,
  r 39070020 7 1, r 39070020 7 1, r 39070020 7 1, r 39070020 7 1, r 39070020 7 1, r 39070020 7 1, r 39070020 7 1, r 39070020 7 1,
  r 39070020 7 1, r 39070024 7 1, r 39070024 7 1, r 39070024 7 1, r 39070024 7 1, r 39070024 7 1, r 39070024 7 1, r 39070024 7 1,
  r 39070024 7 1, r 39070024 7 1, r 39070024 7 1, r 39070024 7 1, r 39162980 13 1, r 39362254 13 1, r 39540052 5 2, r 39550110 35 0,
  r 39570024 7 1, r 39570024 7 1, r 39570061 7 1, r 39570061 7 1, r 40030000 13 1, r 40040028 5 2, r 40040028 5 2, r 40040028 5 2,
  r 40040028 5 2, r 40040028 5 2, r 40040028 5 2, r 40050150 42 0, r 40060265 13 1, r 40060300 13 1, r 40060560 38 0, r 40069266 13 1,
  r 40069283 13 1, r 40069363 13 1, r 40069408 13 1, r 40069546 13 1, r 40069601 13 1, r 40069709 13 1, r 40069716 13 1, r 40070024 7 1,
  r 40070024 7 1, r 40070024 7 1, r 40070024 7 1, r 40070024 7 1, r 40070024 7 1, r 40070080 7 1, r 40070080 7 1, r 40070080 7 1,
  r 40070080 7 1, r 40070080 7 1, r 40070080 7 1, r 40090900 4 0, r 40154476 43 0, r 40154530 42 0, r 40164024 13 1, r 40164352 13 1,
  r 40164352 13 1, r 40164528 13 1, r 40164618 13 1, r 40164901 13 1, r 40165366 13 1, r 40340030 5 2, r 40340030 5 2, r 40350005 44 0,
  r 40351060 43 0, r 40361627 13 1, r 40361906 13 1, r 40370024 7 1, r 40370024 7 1, r 40370024 7 1, r 40370024 7 1, r 40370024 7 1,
  r 40370024 7 1, r 40370024 7 1, r 40370079 7 1, r 40370079 7 1, r 40370079 7 1, r 40370079 7 1, r 40370079 7 1, r 40370079 7 1,
  r 40370079 7 1, r 41040018 5 2, r 41040018 5 2, r 41050095 43 0, r 41051845 42 0, r 41061011 13 1, r 41061903 13 1, r 41062215 13 1,
  r 41070024 7 1, r 41070024 7 1, r 41070049 7 1, r 41070049 7 1]

/-- Entries 1201 to 1500 of /repo/bankinfo/data.go. -/
def rows4 : List Row := [
  r 41250035 45 0, r 41261324 13 1, r 41262501 13 1, r 41440018 5 2, r 41450075 46 0, r 41460116 13 1, r 41651770 43 0, r 41651965 47 0,
  r 41660124 13 1, r 41661206 13 1, r 41662465 13 1, r 41670024 7 1, r 41670024 7 1, r 41670024 7 1, r 41670024 7 1, r 41670027 7 1,
  r 41670028 7 1, r 41670029 7 1, r 41670030 7 1, r 42030600 1 1, r 42040040 5 2, r 42050001 46 0, r 42070024 7 1, r 42070024 7 1,
  r 42070024 7 1, r 42070024 7 1, r 42070024 7 1, r 42070024 7 1, r 42070024 7 1, r 42070024 7 1, r 42070062 7 1, r 42070062 7 1,
  r 42070062 7 1, r 42070062 7 1, r 42070062 7 1, r 42070062 7 1, r 42070062 7 1, r 42070062 7 1, r 42260001 13 1, r 42260001 13 1,
  r 42450040 42 0, r 42451220 46 0, r 42461435 13 1, r 42640048 5 2, r 42650150 42 0, r 42651315 44 0, r 42661008 13 1, r 42840005 5 2,
  r 42840005 5 2, r 42840005 5 2, r 42850035 44 0, r 42860003 13 1, r 42861387 13 1, r 42861387 13 1, r 42861515 13 1, r 42861608 13 1,
  r 42861814 13 1, r 42862451 13 1, r 42870024 7 1, r 42870024 7 1, r 42870077 7 1, r 42870077 7 1, r 43040036 5 2, r 43040036 5 2,
  r 43050001 47 0, r 43051040 45 0, r 43060129 13 1, r 43060967 13 1, r 43070024 7 1, r 43070024 7 1, r 43070024 7 1, r 43070024 7 1,
  r 43070024 7 1, r 43070061 7 1, r 43070061 7 1, r 43070061 7 1, r 43070061 7 1, r 43070061 7 1, r 43250030 43 0, r 44010046 0 0,
  r 44020090 2 1, r 44020090 2 1, r 44040037 5 2, r 44040037 5 2, r 44040037 5 2, r 44040037 5 2, r 44050199 48 0, r 44060122 13 1,
  r 44070024 7 1, r 44070024 7 1, r 44070024 7 1, r 44070024 7 1, r 44070024 7 1, r 44070024 7 1, r 44070024 7 1, r 44070050 7 1,
  r 44070050 7 1, r 44070050 7 1, r 44070050 7 1, r 44070050 7 1, r 44070050 7 1, r 44070050 7 1, r 44090920 4 1, r 44152370 43 0,
  r 44160014 13 1, r 44340037 5 2, r 44350060 45 0, r 44540022 5 2, r 44540022 5 2, r 44540022 5 2, r 44550045 45 0, r 44551210 45 0,
  r 44570004 7 1, r 44570004 7 1, r 44570004 7 1, r 44570004 7 1, r 44570004 7 1, r 44570004 7 1, r 44570004 7 1, r 44570024 7 1,
  r 44570024 7 1, r 44570024 7 1, r 44570024 7 1, r 44570024 7 1, r 44570024 7 1, r 44570024 7 1, r 44761312 13 1, r 44761534 13 1,
  r 45040042 5 2, r 45050001 45 0, r 45060009 13 1, r 45061524 13 1, r 45070002 7 1, r 45070002 7 1, r 45070002 7 1, r 45070002 7 1,
  r 45070002 7 1, r 45070024 7 1, r 45070024 7 1, r 45070024 7 1, r 45070024 7 1, r 45070024 7 1, r 45240056 5 2, r 45250035 44 0,
  r 45260475 13 1, r 45261547 13 1, r 45450050 47 0, r 45451555 47 0, r 45840026 5 2, r 45840026 5 2, r 45840026 5 2, r 45840026 5 2,
  r 45840026 5 2, r 45840026 5 2, r 45841031 5 2, r 45851020 43 0, r 45851665 43 0, r 45861434 13 1, r 46040033 5 2, r 46040033 5 2,
  r 46040033 5 2, r 46040033 5 2, r 46040033 5 2, r 46050001 46 0, r 46051240 47 0, r 46053480 43 0, r 46060040 13 1, r 46061724 13 1,
  r 46061724 13 1, r 46062817 13 1, r 46063405 13 1, r 46070024 7 1, r 46070024 7 1, r 46070024 7 1, r 46070024 7 1, r 46070024 7 1,
  r 46070024 7 1, r 46070024 7 1, r 46070024 7 1, r 46070024 7 1, r 46070024 7 1, r 46070024 7 1, r 46070024 7 1, r 46070024 7 1,
  r 46070024 7 1, r 46070024 7 1, r 46070024 7 1, r 46070024 7 1, r 46070090 7 1, r 46070090 7 1, r 46070090 7 1, r 46070090 7 1,
  r 46070090 7 1, r 46070090 7 1, r 46070090 7 1, r 46070090 7 1, r 46070090 7 1, r 46070090 7 1, r 46070090 7 1, r 46070090 7 1,
  r 46070090 7 1, r 46070090 7 1, r 46070090 7 1, r 46070090 7 1, r 46070090 7 1, r 46240016 5 2, r 46250049 46 0, r 46251630 47 0,
  r 46261607 13 1, r 46261822 13 1, r 46441003 5 2, r 46451012 47 0, r 46640018 5 2, r 46650005 44 0, r 46670007 7 1, r 46670007 7 1,
  r 46670007 7 1, r 46670024 7 1, r 46670024 7 1, r 46670024 7 1, r 47240047 5 2, r 47240047 5 2, r 47240047 5 2, r 47260121 13 1,
  r 47260234 13 1, r 47260307 13 1, r 47262626 13 1, r 47264367 13 1, r 47270024 7 1, r 47270024 7 1, r 47270024 7 1, r 47270024 7 1,
  r 47270024 7 1, r 47270029 7 1, r 47270029 7 1, r 47270029 7 1, r 47270029 7 1, r 47270029 7 1, r 47640051 5 2, r 47640051 5 2,
  r 47640051 5 2, r 47640051 5 2, r 47650130 44 0, r 47670023 7 1, r 47670023 7 1, r 47670023 7 1, r 47670023 7 1, r 47670023 7 1,
  r 47670023 7 1, r 47670024 7 1, r 47670024 7 1, r 47670024 7 1, r 47670024 7 1, r 47670024 7 1, r 47670024 7 1, r 47691200 13 1,
  r 47840065 5 2, r 47840065 5 2, r 47840065 5 2, r 47840065 5 2, r 47840065 5 2, r 47850065 44 0, r 47853520 43 0, r 47860125 13 1,
  r 47862447 13 1, r 47863373 13 1, r 48020086 2 1, r 48020086 2 1, r 48020086 2 1, r 48020151 1 1, r 48020151 1 1, r 48020151 1 1,
  r 48020151 1 1, r 48020151 1 1, r 48020151 1 1, r 48020151 1 1, r 48020151 1 1, r 48020151 1 1, r 48020151 1 1, r 48020151 1 1,
  r 48020151 1 1, r 48021900 13 1, r 48040035 5 2, r 48040035 5 2, r 48050161 44 0, r 48051580 44 0, r 48060036 13 1, r 48062051 13 1,
  r 48070020 7 1, r 48070020 7 1, r 48070020 7 1, r 48070024 7 1, r 48070024 7 1, r 48070024 7 1, r 48070024 7 1, r 48070024 7 1,
  r 48070024 7 1, r 48070024 7 1, r 48070024 7 1, r 48070024 7 1]

/-- Entries 1501 to 1800 of /repo/bankinfo/data.go. -/
def rows5 : List Row := [
  r 48070024 7 1, r 48070024 7 1, r 48070024 7 1, r 48070040 7 1, r 48070042 7 1, r 48070043 7 1, r 48070044 7 1, r 48070045 7 1,
  r 48070050 7 1, r 48070052 7 1, r 48250110 43 0, r 48291490 13 1, r 48291490 13 1, r 49040043 5 2, r 49050101 45 0, r 49051065 45 0,
  r 49051285 45 0, r 49070024 7 1, r 49070024 7 1, r 49070024 7 1, r 49070024 7 1, r 49070024 7 1, r 49070028 7 1, r 49070028 7 1,
  r 49070028 7 1, r 49070028 7 1, r 49070028 7 1, r 49092650 13 1, r 49240096 5 2, r 49240096 5 2, r 49440043 5 2, r 49440043 5 2,
  r 49450120 46 0, r 49490070 13 1, r 50010060 0 0, r 50010517 49 0, r 50010700 50 0, r 50015001 4 0, r 50020000 13 1, r 50020200 1 1,
  r 50020500 4 1, r 50030010 13 0, r 50030100 13 1, r 50031000 4 1, r 50033300 5 2, r 50040000 5 2, r 50040000 5 2, r 50040000 5 2,
  r 50040000 5 2, r 50040000 5 2, r 50040000 5 2, r 50040000 5 2, r 50040000 5 2, r 50040000 5 2, r 50040000 5 2, r 50040000 5 2,
  r 50040000 5 2, r 50040000 5 2, r 50040000 5 2, r 50040033 5 2, r 50050201 51 0, r 50050222 52 0, r 50060474 4 1, r 50061741 4 1,
  r 50069126 4 1, r 50069146 4 1, r 50069345 4 1, r 50069455 4 1, r 50069477 4 1, r 50069693 4 1, r 50069976 4 1, r 50070010 7 1,
  r 50070010 7 1, r 50070010 7 1, r 50070010 7 1, r 50070010 7 1, r 50070010 7 1, r 50070010 7 1, r 50070010 7 1, r 50070024 7 1,
  r 50070024 7 1, r 50070024 7 1, r 50070024 7 1, r 50070024 7 1, r 50070024 7 1, r 50070024 7 1, r 50070024 7 1, r 50070024 7 1,
  r 50073019 7 1, r 50073019 7 1, r 50073024 7 1, r 50073024 7 1, r 50090500 38 0, r 50090900 4 0, r 50092100 4 1, r 50092900 4 1,
  r 50093400 4 1, r 50110700 4 1, r 50120900 4 1, r 50123400 13 0, r 50130400 1 1, r 50131000 4 1, r 50190000 4 1, r 50220900 5 2,
  r 50230600 1 1, r 50230888 4 1, r 50320191 2 1, r 50320191 2 1, r 50320191 2 1, r 50520190 2 1, r 50520190 2 1, r 50530000 4 1,
  r 50540028 5 2, r 50540028 5 2, r 50540028 5 2, r 50550020 53 0, r 50570018 7 1, r 50570018 7 1, r 50570018 7 1, r 50570018 7 1,
  r 50570018 7 1, r 50570018 7 1, r 50570018 7 1, r 50570018 7 1, r 50570018 7 1, r 50570024 7 1, r 50570024 7 1, r 50570024 7 1,
  r 50570024 7 1, r 50570024 7 1, r 50570024 7 1, r 50570024 7 1, r 50570024 7 1, r 50570024 7 1, r 50590000 4 1, r 50592200 4 1,
  r 50640015 5 2, r 50650023 53 0, r 50652124 54 0, r 50661639 4 1, r 50661816 4 1, r 50662299 4 1, r 50662669 4 1, r 50663699 4 1,
  r 50670009 7 1, r 50670009 7 1, r 50670024 7 1, r 50670024 7 1, r 50690000 4 1, r 50692100 4 1, r 50750094 54 0, r 50761613 4 1,
  r 50790000 4 1, r 50794300 4 1, r 50820292 2 1, r 50840005 5 2, r 50840005 5 2, r 50840005 5 2, r 50840005 5 2, r 50840005 5 2,
  r 50850150 53 0, r 50851952 55 0, r 50852553 56 0, r 50852651 56 0, r 50861501 4 1, r 50862703 4 1, r 50862835 4 1, r 50862903 4 1,
  r 50863513 4 1, r 50865224 4 1, r 50870005 7 1, r 50870005 7 1, r 50870005 7 1, r 50870005 7 1, r 50870024 7 1, r 50870024 7 1,
  r 50870024 7 1, r 50870024 7 1, r 50892500 4 1, r 50950068 55 0, r 50951469 55 0, r 50961206 4 1, r 50961592 4 1, r 50970004 7 1,
  r 50970004 7 1, r 50970024 7 1, r 50970024 7 1, r 51020000 1 1, r 51020186 2 1, r 51040038 5 2, r 51040038 5 2, r 51050015 57 0,
  r 51070021 7 1, r 51070021 7 1, r 51070021 7 1, r 51070024 7 1, r 51070024 7 1, r 51070024 7 1, r 51090000 4 1, r 51091500 4 1,
  r 51091711 4 1, r 51140029 5 2, r 51140029 5 2, r 51150018 56 0, r 51151919 55 0, r 51161606 4 1, r 51170010 7 1, r 51170024 7 1,
  r 51191800 4 1, r 51192200 4 1, r 51210700 4 1, r 51230800 13 1, r 51250000 53 0, r 51340013 5 2, r 51340013 5 2, r 51343224 5 2,
  r 51350025 53 0, r 51351526 54 0, r 51352227 56 0, r 51361021 4 1, r 51370008 7 1, r 51370024 7 1, r 51390000 4 1, r 51420300 1 0,
  r 51540037 5 2, r 51540037 5 2, r 51550035 54 0, r 51570008 7 1, r 51570024 7 1, r 51591300 4 1, r 51640043 5 2, r 51650045 56 0,
  r 51752267 53 0, r 51762434 4 1, r 51850079 54 0, r 51861325 4 1, r 51861403 4 1, r 51861616 4 1, r 51861806 4 1, r 51961023 4 1,
  r 51961801 4 1, r 51990000 4 1, r 52040021 5 2, r 52040021 5 2, r 52040021 5 2, r 52050353 53 0, r 52051877 55 0, r 52052154 55 0,
  r 52053458 56 0, r 52060208 4 1, r 52060410 4 1, r 52062601 4 1, r 52063369 4 1, r 52063550 4 1, r 52064156 4 1, r 52069029 4 1,
  r 52070012 7 1, r 52070012 7 1, r 52070012 7 1, r 52070024 7 1, r 52070024 7 1, r 52070024 7 1, r 52071212 7 1, r 52071224 7 1,
  r 52090000 4 1, r 52240006 5 2, r 52250030 55 0, r 52260385 4 1, r 52270012 7 1, r 52270024 7 1, r 52350005 55 0, r 52360059 4 1,
  r 52411000 4 1, r 53040012 5 2, r 53050180 56 0, r 53051396 54 0, r 53060180 4 1, r 53061230 4 1, r 53062035 4 1, r 53062350 4 1,
  r 53070007 7 1, r 53070007 7 1, r 53070007 7 1, r 53070024 7 1, r 53070024 7 1, r 53070024 7 1, r 53093200 4 1, r 53093255 4 1,
  r 53240048 5 2, r 53250000 53 0, r 53261342 4 1, r 53270012 7 1, r 53270024 7 1, r 53290000 4 1, r 53340024 5 2, r 53340024 5 2,
  r 53350000 54 0, r 53370008 7 1, r 53370024 7 1, r 54020090 2 1]

/-- Entries 1801 to 2100 of /repo/bankinfo/data.go. -/
def rows6 : List Row := [
  r 54040042 5 2, r 54050220 58 0, r 54051550 58 0, r 54051990 58 0, r 54070024 7 1, r 54070024 7 1, r 54070092 7 1, r 54070092 7 1,
  r 54090000 4 1, r 54091700 4 1, r 54091800 4 1, r 54092400 4 1, r 54220091 2 1, r 54240032 5 2, r 54250010 59 0, r 54261700 4 1,
  r 54270024 7 1, r 54270024 7 1, r 54270096 7 1, r 54270096 7 1, r 54510067 0 0, r 54520194 2 1, r 54520194 2 1, r 54520194 2 1,
  r 54520194 2 1, r 54520194 2 1, r 54520194 2 1, r 54520194 2 1, r 54520194 2 1, r 54520194 2 1, r 54520194 2 1, r 54520194 2 1,
  r 54520194 2 1, r 54540033 5 2, r 54540033 5 2, r 54540033 5 2, r 54540033 5 2, r 54550010 59 0, r 54570024 7 1, r 54570024 7 1,
  r 54570024 7 1, r 54570024 7 1, r 54570024 7 1, r 54570024 7 1, r 54570094 7 1, r 54570094 7 1, r 54570094 7 1, r 54570094 7 1,
  r 54570094 7 1, r 54570094 7 1, r 54620093 2 1, r 54640035 5 2, r 54651240 59 0, r 54670024 7 1, r 54670024 7 1, r 54670024 7 1,
  r 54670095 7 1, r 54670095 7 1, r 54670095 7 1, r 54691200 4 1, r 54790000 4 1, r 54850010 59 0, r 54862500 4 1, r 54891300 4 1,
  r 55020000 1 1, r 55020486 2 1, r 55033300 5 2, r 55040022 5 2, r 55040022 5 2, r 55040022 5 2, r 55040022 5 2, r 55060321 4 1,
  r 55060611 4 1, r 55061303 4 1, r 55061507 4 1, r 55070024 7 1, r 55070024 7 1, r 55070024 7 1, r 55070024 7 1, r 55070040 7 1,
  r 55070040 7 1, r 55070040 7 1, r 55070040 7 1, r 55090500 4 1, r 55091200 4 1, r 55190000 4 1, r 55340041 5 2, r 55350010 58 0,
  r 55361202 4 1, r 56020086 2 1, r 56050180 58 0, r 56051790 58 0, r 56061151 13 1, r 56061472 13 1, r 56061472 13 1, r 56062227 13 1,
  r 56070024 7 1, r 56070040 7 1, r 56090000 13 1, r 56240050 5 2, r 56240050 5 2, r 56250030 58 0, r 56261735 13 1, r 56270024 7 1,
  r 56270044 7 1, r 57020086 2 1, r 57040044 5 2, r 57040044 5 2, r 57040044 5 2, r 57040044 5 2, r 57050120 60 0, r 57062675 13 1,
  r 57069144 13 1, r 57069238 13 1, r 57069361 13 1, r 57070024 7 1, r 57070024 7 1, r 57070024 7 1, r 57070024 7 1, r 57070024 7 1,
  r 57070024 7 1, r 57070045 7 1, r 57070045 7 1, r 57070045 7 1, r 57070045 7 1, r 57070045 7 1, r 57070045 7 1, r 57090900 4 0,
  r 57091100 4 1, r 57092800 4 1, r 57351030 60 0, r 57361476 13 1, r 57391200 4 1, r 57391500 4 1, r 57391800 4 1, r 57450120 60 0,
  r 57470024 7 1, r 57470024 7 1, r 57470024 7 1, r 57470024 7 1, r 57470047 7 1, r 57470047 7 1, r 57470047 7 1, r 57470047 7 1,
  r 57650010 60 0, r 57751310 60 0, r 57761591 13 1, r 58520086 2 1, r 58540035 5 2, r 58540035 5 2, r 58550130 60 0, r 58560103 13 1,
  r 58561771 13 1, r 58570024 7 1, r 58570024 7 1, r 58570024 7 1, r 58570048 7 1, r 58570048 7 1, r 58570048 7 1, r 58590900 4 1,
  r 58650030 60 0, r 58651240 60 0, r 58660101 13 1, r 58660101 13 1, r 58661901 13 1, r 58751230 60 0, r 58771224 7 1, r 58771224 7 1,
  r 58771224 7 1, r 58771242 7 1, r 58771242 7 1, r 58771242 7 1, r 59010066 0 0, r 59020090 2 1, r 59020090 2 1, r 59020090 2 1,
  r 59020090 2 1, r 59020090 2 1, r 59020090 2 1, r 59020090 2 1, r 59020090 2 1, r 59020090 2 1, r 59020090 2 1, r 59040000 5 2,
  r 59040000 5 2, r 59040000 5 2, r 59040000 5 2, r 59040000 5 2, r 59040000 5 2, r 59050000 61 0, r 59050101 62 0, r 59070070 7 1,
  r 59070070 7 1, r 59070070 7 1, r 59070070 7 1, r 59070070 7 1, r 59070070 7 1, r 59070070 7 1, r 59070070 7 1, r 59090900 4 0,
  r 59092000 4 1, r 59190000 4 1, r 59251020 62 0, r 59252046 62 0, r 59292400 4 1, r 59320087 2 1, r 59350110 62 0, r 59351040 62 0,
  r 59393000 4 1, r 59450010 62 0, r 59491114 4 1, r 60010070 0 0, r 60020100 3 1, r 60020290 2 1, r 60020290 2 1, r 60020290 2 1,
  r 60020290 2 1, r 60020290 2 1, r 60020290 2 1, r 60020290 2 1, r 60030100 4 1, r 60030200 4 1, r 60030700 4 1, r 60030900 1 1,
  r 60040071 5 2, r 60040071 5 2, r 60040071 5 2, r 60040071 5 2, r 60040071 5 2, r 60040071 5 2, r 60040071 5 2, r 60050000 5 5,
  r 60050101 63 0, r 60060396 4 1, r 60062775 4 1, r 60069066 4 1, r 60069075 4 1, r 60069147 4 1, r 60069206 4 1, r 60069224 4 1,
  r 60069235 4 1, r 60069239 4 1, r 60069242 4 1, r 60069303 4 1, r 60069336 4 1, r 60069343 4 1, r 60069346 4 1, r 60069350 4 1,
  r 60069355 4 1, r 60069378 4 1, r 60069387 4 1, r 60069420 4 1, r 60069442 4 1, r 60069457 4 1, r 60069462 4 1, r 60069463 4 1,
  r 60069517 4 1, r 60069527 4 1, r 60069544 4 1, r 60069553 4 1, r 60069595 4 1, r 60069669 4 1, r 60069673 4 1, r 60069685 4 1,
  r 60069705 4 1, r 60069710 4 1, r 60069714 4 1, r 60069738 4 1, r 60069766 4 1, r 60069795 4 1, r 60069832 4 1, r 60069896 4 1,
  r 60069905 4 1, r 60069911 4 1, r 60069931 4 1, r 60069950 4 1, r 60069976 4 1, r 60069980 4 1, r 60070024 7 1, r 60070024 7 1,
  r 60070024 7 1, r 60070024 7 1, r 60070024 7 1, r 60070024 7 1, r 60070070 7 1, r 60070070 7 1, r 60070070 7 1, r 60070070 7 1,
  r 60070070 7 1, r 60070070 7 1, r 60090100 4 1, r 60090300 4 1, r 60090700 4 1, r 60090800 38 0, r 60090900 4 0, r 60120200 1 1,
  r 60133300 5 2, r 60241074 5 2, r 60250010 64 0, r 60270024 7 1]

/-- Entries 2101 to 2400 of /repo/bankinfo/data.go. -/
def rows7 : List Row := [
  r 60270073 7 1, r 60290110 4 1, r 60291120 4 1, r 60320291 2 1, r 60340071 5 2, r 60350130 65 0, r 60390000 4 1, r 60390300 4 1,
  r 60391310 4 1, r 60391420 4 1, r 60420000 66 0, r 60420020 13 0, r 60420186 2 1, r 60422000 4 1, r 60440073 5 2, r 60440073 5 2,
  r 60450050 67 0, r 60460142 4 1, r 60470024 7 1, r 60470024 7 1, r 60470024 7 1, r 60470024 7 1, r 60470024 7 1, r 60470024 7 1,
  r 60470024 7 1, r 60470082 7 1, r 60470082 7 1, r 60470082 7 1, r 60470082 7 1, r 60470082 7 1, r 60470082 7 1, r 60470082 7 1,
  r 60491430 4 1, r 60663084 4 1, r 60670024 7 1, r 60670070 7 1, r 61030000 4 1, r 61040014 5 2, r 61040014 5 2, r 61050000 68 0,
  r 61060500 4 1, r 61070024 7 1, r 61070024 7 1, r 61070024 7 1, r 61070078 7 1, r 61070078 7 1, r 61070078 7 1, r 61120286 2 1,
  r 61140071 5 2, r 61140071 5 2, r 61150020 69 0, r 61161696 4 1, r 61170024 7 1, r 61170024 7 1, r 61170024 7 1, r 61170024 7 1,
  r 61170076 7 1, r 61170076 7 1, r 61170076 7 1, r 61170076 7 1, r 61191310 4 1, r 61262345 4 1, r 61290120 4 1, r 61340079 5 2,
  r 61361722 4 1, r 61370024 7 1, r 61370024 7 1, r 61370024 7 1, r 61370024 7 1, r 61370024 7 1, r 61370024 7 1, r 61370024 7 1,
  r 61370024 7 1, r 61370086 7 1, r 61370086 7 1, r 61370086 7 1, r 61370086 7 1, r 61370086 7 1, r 61370086 7 1, r 61370086 7 1,
  r 61370086 7 1, r 61391410 4 1, r 61420086 2 1, r 61440086 5 2, r 61450050 65 0, r 61490150 4 1, r 61491010 4 1, r 62020000 4 1,
  r 62040060 5 2, r 62050000 70 0, r 62061991 4 1, r 62062215 4 1, r 62062643 4 1, r 62063263 4 1, r 62070024 7 1, r 62070024 7 1,
  r 62070024 7 1, r 62070024 7 1, r 62070024 7 1, r 62070081 7 1, r 62070081 7 1, r 62070081 7 1, r 62070081 7 1, r 62070081 7 1,
  r 62091600 4 1, r 62091800 4 1, r 62250030 70 0, r 62251550 65 0, r 62290110 4 1, r 63020086 2 1, r 63020086 2 1, r 63020086 2 1,
  r 63020086 2 1, r 63020086 2 1, r 63040053 5 2, r 63040053 5 2, r 63040053 5 2, r 63050000 64 0, r 63070024 7 1, r 63070024 7 1,
  r 63070024 7 1, r 63070088 7 1, r 63070088 7 1, r 63070088 7 1, r 63090100 4 1, r 63091010 4 1, r 63091300 4 1, r 63220090 2 1,
  r 63240016 5 2, r 63250030 68 0, r 63290110 4 1, r 64020186 2 1, r 64040033 5 2, r 64040045 5 2, r 64050000 68 0, r 64070024 7 1,
  r 64070024 7 1, r 64070024 7 1, r 64070024 7 1, r 64070024 7 1, r 64070024 7 1, r 64070024 7 1, r 64070085 7 1, r 64070085 7 1,
  r 64070085 7 1, r 64070085 7 1, r 64070085 7 1, r 64070085 7 1, r 64070085 7 1, r 64091200 4 1, r 64091300 4 1, r 64140036 5 2,
  r 64150020 65 0, r 64161397 4 1, r 64163225 4 1, r 64191210 4 1, r 64240071 5 2, r 64250040 69 0, r 64251060 69 0, r 64261626 4 1,
  r 64261853 4 1, r 64262408 4 1, r 64290120 4 1, r 64291010 4 1, r 64291420 4 1, r 64292310 4 1, r 64350070 69 0, r 64361359 4 1,
  r 64390130 4 1, r 65020186 2 1, r 65040073 5 2, r 65050110 64 0, r 65063086 4 1, r 65070024 7 1, r 65070024 7 1, r 65070024 7 1,
  r 65070024 7 1, r 65070024 7 1, r 65070024 7 1, r 65070024 7 1, r 65070084 7 1, r 65070084 7 1, r 65070084 7 1, r 65070084 7 1,
  r 65070084 7 1, r 65070084 7 1, r 65070084 7 1, r 65090100 4 1, r 65091040 4 1, r 65092200 4 1, r 65093020 4 1, r 65110200 4 1,
  r 65140072 5 2, r 65162832 4 1, r 65191500 4 1, r 65340004 5 2, r 65340004 5 2, r 65341204 5 2, r 65351050 70 0, r 65351260 69 0,
  r 65361898 4 1, r 65361989 4 1, r 65362499 4 1, r 65370024 7 1, r 65370024 7 1, r 65370024 7 1, r 65370075 7 1, r 65370075 7 1,
  r 65370075 7 1, r 65390120 4 1, r 65440087 5 2, r 65450070 68 0, r 65491320 4 1, r 65491510 4 1, r 66010075 0 0, r 66020286 2 1,
  r 66020286 2 1, r 66020286 2 1, r 66030600 1 1, r 66040018 5 2, r 66040018 5 2, r 66040018 5 2, r 66050101 67 0, r 66061407 4 1,
  r 66062366 4 1, r 66069103 4 1, r 66069342 4 1, r 66070004 7 1, r 66070004 7 1, r 66070004 7 1, r 66070004 7 1, r 66070024 7 1,
  r 66070024 7 1, r 66070024 7 1, r 66070024 7 1, r 66090800 4 1, r 66090900 4 1, r 66091200 4 1, r 66190000 4 1, r 66240002 5 2,
  r 66250030 68 0, r 66251434 68 0, r 66261092 4 1, r 66261416 4 1, r 66270001 7 1, r 66270001 7 1, r 66270001 7 1, r 66270001 7 1,
  r 66270001 7 1, r 66270024 7 1, r 66270024 7 1, r 66270024 7 1, r 66270024 7 1, r 66270024 7 1, r 66291400 4 1, r 66340018 5 2,
  r 66350036 70 0, r 66432700 1 0, r 66440084 5 2, r 66450050 65 0, r 66451548 65 0, r 66451862 65 0, r 66452776 65 0, r 66470024 7 1,
  r 66470024 7 1, r 66470024 7 1, r 66470024 7 1, r 66470035 7 1, r 66470035 7 1, r 66470035 7 1, r 66470035 7 1, r 66490000 4 1,
  r 66491800 4 1, r 66492600 4 1, r 66492700 4 1, r 66550070 68 0, r 66562053 4 1, r 66562300 4 1, r 66640035 5 2, r 66650085 68 0,
  r 66661329 4 1, r 66662155 4 1, r 66670006 7 1, r 66670006 7 1, r 66670024 7 1, r 66670024 7 1, r 67020190 2 1, r 67020190 2 1,
  r 67020190 2 1, r 67040031 5 2, r 67040031 5 2, r 67040031 5 2, r 67040031 5 2, r 67040031 5 2, r 67040031 5 2, r 67040031 5 2,
  r 67040031 5 2, r 67050505 67 0, r 67060031 4 1, r 67070010 7 1]

/-- Entries 2401 to 2700 of /repo/bankinfo/data.go. -/
def rows8 : List Row := [
  r 67070010 7 1, r 67070010 7 1, r 67070010 7 1, r 67070010 7 1, r 67070024 7 1, r 67070024 7 1, r 67070024 7 1, r 67070024 7 1,
  r 67070024 7 1, r 67090000 4 1, r 67092300 4 1, r 67220286 2 1, r 67230000 4 1, r 67230001 4 1, r 67240039 5 2, r 67250020 67 0,
  r 67262243 4 1, r 67262550 4 1, r 67270003 7 1, r 67270003 7 1, r 67270003 7 1, r 67270024 7 1, r 67270024 7 1, r 67270024 7 1,
  r 67290000 4 1, r 67291700 4 1, r 67292200 4 1, r 67352565 69 0, r 67362560 4 1, r 67390000 4 1, r 67450048 65 0, r 67461424 4 1,
  r 67461733 4 1, r 67462368 4 1, r 68020186 2 1, r 68020186 2 1, r 68020186 2 1, r 68030000 13 1, r 68040007 5 2, r 68040007 5 2,
  r 68040007 5 2, r 68050101 70 0, r 68051004 70 0, r 68051207 69 0, r 68052230 69 0, r 68052328 70 0, r 68061505 4 1, r 68062105 4 1,
  r 68062730 4 1, r 68063479 4 1, r 68064222 4 1, r 68070024 7 1, r 68070024 7 1, r 68070024 7 1, r 68070024 7 1, r 68070024 7 1,
  r 68070030 7 1, r 68070030 7 1, r 68070030 7 1, r 68070030 7 1, r 68070030 7 1, r 68090000 4 1, r 68090900 4 0, r 68092000 4 1,
  r 68092300 4 1, r 68270024 7 1, r 68270033 7 1, r 68290000 4 1, r 68340058 5 2, r 68340058 5 2, r 68340058 5 2, r 68340058 5 2,
  r 68350048 69 0, r 68351557 69 0, r 68351865 69 0, r 68370024 7 1, r 68370024 7 1, r 68370024 7 1, r 68370024 7 1, r 68370024 7 1,
  r 68370024 7 1, r 68370024 7 1, r 68370024 7 1, r 68370034 7 1, r 68370034 7 1, r 68370034 7 1, r 68370034 7 1, r 68370034 7 1,
  r 68370034 7 1, r 68370034 7 1, r 68370034 7 1, r 68390000 4 1, r 68452290 69 0, r 68462427 4 1, r 68490000 4 1, r 68492200 4 1,
  r 69020190 2 1, r 69040045 5 2, r 69050001 64 0, r 69051410 64 0, r 69051620 70 0, r 69051725 64 0, r 69061800 4 1, r 69070024 7 1,
  r 69070024 7 1, r 69070032 7 1, r 69070032 7 1, r 69091200 4 1, r 69091600 4 1, r 69220186 2 1, r 69240075 5 2, r 69250035 70 0,
  r 69251445 70 0, r 69270024 7 1, r 69270024 7 1, r 69270038 7 1, r 69270038 7 1, r 69291000 4 1, r 69362032 4 1, r 69440007 5 2,
  r 69440007 5 2, r 69440007 5 2, r 69450065 64 0, r 69470024 7 1, r 69470024 7 1, r 69470024 7 1, r 69470024 7 1, r 69470024 7 1,
  r 69470024 7 1, r 69470039 7 1, r 69470039 7 1, r 69470039 7 1, r 69470039 7 1, r 69470039 7 1, r 70010080 0 0, r 70011600 4 1,
  r 70012200 4 1, r 70012600 4 1, r 70013100 13 1, r 70013155 13 1, r 70013199 13 1, r 70013500 4 1, r 70017000 71 0, r 70020270 2 1,
  r 70020270 2 1, r 70020270 2 1, r 70020270 2 1, r 70020270 2 1, r 70020270 2 1, r 70020270 2 1, r 70020270 2 1, r 70020270 2 1,
  r 70020270 2 1, r 70020270 2 1, r 70020270 2 1, r 70020270 2 1, r 70020270 2 1, r 70020270 2 1, r 70020270 2 1, r 70020270 2 1,
  r 70020270 2 1, r 70020270 2 1, r 70020270 2 1, r 70020270 2 1, r 70020270 2 1, r 70020270 2 1, r 70020270 2 1, r 70020270 2 1,
  r 70020270 2 1, r 70020270 2 1, r 70020270 2 1, r 70020270 2 1, r 70020270 2 1, r 70020270 2 1, r 70020270 2 1, r 70020270 2 1,
  r 70020270 2 1, r 70020270 2 1, r 70020270 2 1, r 70021180 2 1, r 70025175 2 1, r 70025175 2 1, r 70025175 2 1, r 70025175 2 1,
  r 70030400 1 1, r 70031000 72 1, r 70032500 4 1, r 70033100 73 1, r 70035000 27 1, r 70040041 5 2, r 70040041 5 2, r 70040041 5 2,
  r 70040041 5 2, r 70040041 5 2, r 70040041 5 2, r 70040041 5 2, r 70040041 5 2, r 70050000 5 6, r 70051003 74 0, r 70051540 75 0,
  r 70051995 74 0, r 70052060 74 0, r 70053070 75 0, r 70054306 74 0, r 70070010 7 1, r 70070010 7 1, r 70070010 7 1, r 70070010 7 1,
  r 70070010 7 1, r 70070010 7 1, r 70070010 7 1, r 70070010 7 1, r 70070010 7 1, r 70070010 7 1, r 70070010 7 1, r 70070010 7 1,
  r 70070010 7 1, r 70070010 7 1, r 70070010 7 1, r 70070010 7 1, r 70070010 7 1, r 70070010 7 1, r 70070010 7 1, r 70070010 7 1,
  r 70070010 7 1, r 70070024 7 1, r 70070024 7 1, r 70070024 7 1, r 70070024 7 1, r 70070024 7 1, r 70070024 7 1, r 70070024 7 1,
  r 70070024 7 1, r 70070024 7 1, r 70070024 7 1, r 70070024 7 1, r 70070024 7 1, r 70070024 7 1, r 70070024 7 1, r 70070024 7 1,
  r 70070024 7 1, r 70070024 7 1, r 70070024 7 1, r 70070024 7 1, r 70070024 7 1, r 70070024 7 1, r 70090100 4 1, r 70090500 38 0,
  r 70091500 4 1, r 70091600 4 1, r 70093200 4 1, r 70093400 4 1, r 70120400 76 0, r 70120400 76 0, r 70120600 13 1, r 70120700 1 1,
  r 70130800 4 1, r 70133300 5 2, r 70150000 77 0, r 70163370 4 1, r 70166486 4 1, r 70169132 4 1, r 70169165 4 1, r 70169186 4 1,
  r 70169191 4 1, r 70169310 4 1, r 70169333 4 1, r 70169351 4 1, r 70169356 4 1, r 70169382 4 1, r 70169383 4 1, r 70169388 4 1,
  r 70169410 4 1, r 70169413 4 1, r 70169450 4 1, r 70169459 4 1, r 70169460 4 1, r 70169464 4 1, r 70169465 4 1, r 70169466 4 1,
  r 70169476 4 1, r 70169509 4 1, r 70169524 4 1, r 70169530 4 1, r 70169543 4 1, r 70169558 4 1, r 70169566 4 1, r 70169568 4 1,
  r 70169575 4 1, r 70169576 4 1, r 70169585 4 1, r 70169598 4 1, r 70169605 4 1, r 70169614 4 1, r 70169693 4 1, r 70190000 4 1,
  r 70220200 1 1, r 70230600 1 1, r 70250150 75 0, r 70320090 2 1]

/-- Entries 2701 to 3000 of /repo/bankinfo/data.go. -/
def rows9 : List Row := [
  r 70320090 2 1, r 70320090 2 1, r 70320090 2 1, r 70321194 2 1, r 70322192 2 1, r 70351030 74 0, r 70362595 4 1, r 70390000 4 1,
  r 71020072 2 1, r 71020072 2 1, r 71020072 2 1, r 71020072 2 1, r 71020072 2 1, r 71021270 2 1, r 71021270 2 1, r 71021270 2 1,
  r 71021270 2 1, r 71021270 2 1, r 71022182 2 1, r 71022182 2 1, r 71022182 2 1, r 71022182 2 1, r 71022182 2 1, r 71023173 2 1,
  r 71050000 74 0, r 71052050 74 0, r 71062802 4 1, r 71090000 4 1, r 71120077 2 1, r 71120077 2 1, r 71120077 2 1, r 71120077 2 1,
  r 71120077 2 1, r 71120077 2 1, r 71120077 2 1, r 71120078 2 1, r 71120078 2 1, r 71120078 2 1, r 71120078 2 1, r 71120078 2 1,
  r 71121176 2 1, r 71121176 2 1, r 71121176 2 1, r 71122183 2 1, r 71140041 5 2, r 71141041 5 2, r 71142041 5 2, r 71150000 74 0,
  r 71151020 74 0, r 71152570 74 0, r 71152680 74 0, r 71160000 4 1, r 71162355 4 1, r 71162804 4 1, r 71165150 4 1, r 71190000 4 1,
  r 72012300 13 1, r 72020070 2 1, r 72020070 2 1, r 72020070 2 1, r 72020070 2 1, r 72020070 2 1, r 72020070 2 1, r 72020070 2 1,
  r 72020070 2 1, r 72020070 2 1, r 72020070 2 1, r 72020070 2 1, r 72020070 2 1, r 72020070 2 1, r 72020070 2 1, r 72020700 78 1,
  r 72021271 2 1, r 72021876 2 1, r 72021876 2 1, r 72030014 4 1, r 72030227 4 1, r 72040046 5 2, r 72040046 5 2, r 72050000 79 0,
  r 72051210 79 0, r 72051840 79 0, r 72062152 4 1, r 72069005 4 1, r 72069036 4 1, r 72069043 4 1, r 72069105 4 1, r 72069119 4 1,
  r 72069126 4 1, r 72069155 4 1, r 72069179 4 1, r 72069193 4 1, r 72069220 4 1, r 72069235 4 1, r 72069274 4 1, r 72069308 4 1,
  r 72069329 4 1, r 72069736 4 1, r 72069789 4 1, r 72070001 7 1, r 72070001 7 1, r 72070001 7 1, r 72070001 7 1, r 72070001 7 1,
  r 72070001 7 1, r 72070001 7 1, r 72070024 7 1, r 72070024 7 1, r 72070024 7 1, r 72070024 7 1, r 72070024 7 1, r 72070024 7 1,
  r 72070024 7 1, r 72090000 4 1, r 72090500 38 0, r 72090900 4 0, r 72091800 4 1, r 72120078 2 1, r 72120078 2 1, r 72120078 2 1,
  r 72120078 2 1, r 72120078 2 1, r 72120078 2 1, r 72120078 2 1, r 72120078 2 1, r 72120078 2 1, r 72120078 2 1, r 72122181 2 1,
  r 72140052 5 2, r 72150000 74 0, r 72151650 74 0, r 72152070 74 0, r 72160818 4 1, r 72169080 4 1, r 72169218 4 1, r 72169246 4 1,
  r 72169733 4 1, r 72169745 4 1, r 72169756 4 1, r 72169812 4 1, r 72170007 7 1, r 72170007 7 1, r 72170007 7 1, r 72170007 7 1,
  r 72170024 7 1, r 72170024 7 1, r 72170024 7 1, r 72170024 7 1, r 72220074 2 1, r 72223182 2 1, r 72250160 79 0, r 72251520 79 0,
  r 72290100 4 1, r 73050000 79 0, r 73061191 4 1, r 73120075 2 1, r 73120075 2 1, r 73120075 2 1, r 73120075 2 1, r 73120075 2 1,
  r 73120075 2 1, r 73140046 5 2, r 73150000 79 0, r 73160000 4 1, r 73190000 4 1, r 73191500 4 1, r 73320073 2 1, r 73320073 2 1,
  r 73321177 2 1, r 73322380 2 1, r 73322380 2 1, r 73322380 2 1, r 73322380 2 1, r 73331700 4 1, r 73340046 5 2, r 73350000 79 0,
  r 73369264 4 1, r 73369821 4 1, r 73369823 4 1, r 73369826 4 1, r 73369851 4 1, r 73369859 4 1, r 73369871 4 1, r 73369918 4 1,
  r 73369920 4 1, r 73369933 4 1, r 73369936 4 1, r 73369954 4 1, r 73370008 7 1, r 73370008 7 1, r 73370008 7 1, r 73370008 7 1,
  r 73370008 7 1, r 73370008 7 1, r 73370024 7 1, r 73370024 7 1, r 73370024 7 1, r 73370024 7 1, r 73370024 7 1, r 73370024 7 1,
  r 73390000 4 1, r 73392000 4 1, r 73420071 2 1, r 73420071 2 1, r 73420071 2 1, r 73420071 2 1, r 73421478 2 1, r 73421478 2 1,
  r 74020074 2 1, r 74020074 2 1, r 74020074 2 1, r 74020074 2 1, r 74020074 2 1, r 74020074 2 1, r 74020074 2 1, r 74020074 2 1,
  r 74020100 1 0, r 74040082 5 2, r 74050000 75 0, r 74051230 75 0, r 74061101 4 1, r 74061564 4 1, r 74061670 4 1, r 74061813 4 1,
  r 74062490 4 1, r 74062786 4 1, r 74064593 4 1, r 74069744 4 1, r 74090000 4 1, r 74120071 2 1, r 74150000 75 0, r 74151450 75 0,
  r 74160025 4 1, r 74161608 4 1, r 74190000 4 1, r 74191000 4 1, r 74220075 2 1, r 74221170 2 1, r 74221170 2 1, r 74240062 5 2,
  r 74250000 75 0, r 74251020 80 0, r 74260110 4 1, r 74261024 4 1, r 74290000 4 1, r 74320073 2 1, r 74320073 2 1, r 74320073 2 1,
  r 74320073 2 1, r 74320073 2 1, r 74320073 2 1, r 74320073 2 1, r 74320073 2 1, r 74320073 2 1, r 74320073 2 1, r 74340077 5 2,
  r 74350000 75 0, r 74351430 75 0, r 74361211 4 1, r 74362663 4 1, r 74369088 4 1, r 74369130 4 1, r 74369146 4 1, r 74369662 4 1,
  r 74390000 4 1, r 74392300 4 1, r 75020073 2 1, r 75020073 2 1, r 75020073 2 1, r 75020073 2 1, r 75020073 2 1, r 75020073 2 1,
  r 75020073 2 1, r 75020073 2 1, r 75020073 2 1, r 75021174 2 1, r 75040062 5 2, r 75050000 80 0, r 75051040 80 0, r 75051565 75 0,
  r 75060150 4 1, r 75061851 4 1, r 75062026 4 1, r 75069014 4 1, r 75069038 4 1, r 75069055 4 1, r 75069061 4 1, r 75069076 4 1,
  r 75069078 4 1, r 75069081 4 1, r 75069110 4 1, r 75069171 4 1, r 75070013 7 1, r 75070013 7 1, r 75070013 7 1, r 75070013 7 1,
  r 75070024 7 1, r 75070024 7 1, r 75070024 7 1, r 75070024 7 1]

/-- Entries 3001 to 3300 of /repo/bankinfo/data.go. -/
def rows10 : List Row := [
  r 75090000 4 1, r 75090300 4 1, r 75090500 38 0, r 75090900 4 0, r 75091400 4 1, r 75220070 2 1, r 75220070 2 1, r 75240000 5 2,
  r 75250000 80 0, r 75290000 4 1, r 75320075 2 1, r 75320075 2 1, r 75320075 2 1, r 75320075 2 1, r 75340090 5 2, r 75350000 80 0,
  r 75351960 80 0, r 75362039 4 1, r 75390000 4 1, r 76010085 0 0, r 76020070 2 1, r 76020070 2 1, r 76020070 2 1, r 76020070 2 1,
  r 76020070 2 1, r 76020070 2 1, r 76020070 2 1, r 76020070 2 1, r 76020099 2 1, r 76026000 8 0, r 76030080 76 0, r 76030600 1 1,
  r 76035000 4 1, r 76040061 5 2, r 76040061 5 2, r 76040061 5 2, r 76050101 81 0, r 76052080 80 0, r 76061025 4 1, r 76061482 4 1,
  r 76069369 4 1, r 76069372 4 1, r 76069378 4 1, r 76069404 4 1, r 76069410 4 1, r 76069448 4 1, r 76069449 4 1, r 76069462 4 1,
  r 76069486 4 1, r 76069553 4 1, r 76069559 4 1, r 76069564 4 1, r 76069576 4 1, r 76069602 4 1, r 76069611 4 1, r 76069669 4 1,
  r 76070012 7 1, r 76070012 7 1, r 76070012 7 1, r 76070012 7 1, r 76070012 7 1, r 76070012 7 1, r 76070012 7 1, r 76070012 7 1,
  r 76070012 7 1, r 76070012 7 1, r 76070012 7 1, r 76070012 7 1, r 76070012 7 1, r 76070012 7 1, r 76070012 7 1, r 76070012 7 1,
  r 76070024 7 1, r 76070024 7 1, r 76070024 7 1, r 76070024 7 1, r 76070024 7 1, r 76070024 7 1, r 76070024 7 1, r 76070024 7 1,
  r 76070024 7 1, r 76070024 7 1, r 76070024 7 1, r 76070024 7 1, r 76070024 7 1, r 76070024 7 1, r 76070024 7 1, r 76070024 7 1,
  r 76090400 4 1, r 76090500 38 0, r 76090900 4 0, r 76211900 4 1, r 76220073 2 1, r 76220073 2 1, r 76220073 2 1, r 76220073 2 1,
  r 76240011 5 2, r 76240011 5 2, r 76250000 81 0, r 76251020 81 0, r 76320072 2 1, r 76320072 2 1, r 76320072 2 1, r 76320072 2 1,
  r 76320072 2 1, r 76320072 2 1, r 76320072 2 1, r 76340061 5 2, r 76350000 81 0, r 76351040 80 0, r 76391000 4 1, r 76420080 2 1,
  r 76420080 2 1, r 76450000 81 0, r 76520071 2 1, r 76520071 2 1, r 76520071 2 1, r 76520071 2 1, r 76520071 2 1, r 76520071 2 1,
  r 76550000 81 0, r 76551540 81 0, r 76560060 4 1, r 76561979 4 1, r 76591000 4 1, r 77020070 2 1, r 77020070 2 1, r 77020070 2 1,
  r 77040080 5 2, r 77050000 80 0, r 77061004 4 1, r 77062014 4 1, r 77062139 4 1, r 77069044 4 1, r 77069739 4 1, r 77069764 4 1,
  r 77069782 4 1, r 77069868 4 1, r 77069870 4 1, r 77069906 4 1, r 77091800 4 1, r 77120073 2 1, r 77120073 2 1, r 77140061 5 2,
  r 77150000 80 0, r 77190000 4 1, r 77190000 4 1, r 77320072 2 1, r 77320072 2 1, r 77320072 2 1, r 77340076 5 2, r 77350110 80 0,
  r 77365792 4 1, r 78020070 2 1, r 78020070 2 1, r 78020070 2 1, r 78020070 2 1, r 78020070 2 1, r 78020070 2 1, r 78020070 2 1,
  r 78040081 5 2, r 78050000 80 0, r 78060896 4 1, r 78160069 4 1, r 78320076 2 1, r 78320076 2 1, r 78320076 2 1, r 78320076 2 1,
  r 78340091 5 2, r 78340091 5 2, r 78350000 80 0, r 78360000 4 1, r 79020076 2 1, r 79020076 2 1, r 79020076 2 1, r 79020076 2 1,
  r 79020076 2 1, r 79020076 2 1, r 79020076 2 1, r 79020076 2 1, r 79030001 13 1, r 79030001 13 1, r 79030001 13 1, r 79030001 13 1,
  r 79030001 13 1, r 79030001 13 1, r 79030001 13 1, r 79030001 13 1, r 79030001 13 1, r 79030001 13 1, r 79030001 13 1, r 79030001 13 1,
  r 79030001 13 1, r 79030001 13 1, r 79030001 13 1, r 79040047 5 2, r 79040047 5 2, r 79050000 82 0, r 79063122 4 1, r 79065028 4 1,
  r 79069001 4 1, r 79069031 4 1, r 79069150 4 1, r 79069165 4 1, r 79069188 4 1, r 79069213 4 1, r 79070016 7 1, r 79070016 7 1,
  r 79070016 7 1, r 79070024 7 1, r 79070024 7 1, r 79070024 7 1, r 79090000 4 1, r 79190000 4 1, r 79320075 2 1, r 79320075 2 1,
  r 79320075 2 1, r 79320075 2 1, r 79320075 2 1, r 79320075 2 1, r 79320075 2 1, r 79320075 2 1, r 79320075 2 1, r 79320075 2 1,
  r 79320075 2 1, r 79330111 4 1, r 79340054 5 2, r 79340054 5 2, r 79350101 82 0, r 79351010 82 0, r 79353090 82 0, r 79362081 4 1,
  r 79363151 4 1, r 79520070 2 1, r 79520070 2 1, r 79520070 2 1, r 79520070 2 1, r 79520070 2 1, r 79520070 2 1, r 79520070 2 1,
  r 79540049 5 2, r 79550000 82 0, r 79562514 4 1, r 79566545 4 1, r 79570024 7 1, r 79570024 7 1, r 79570051 7 1, r 79570051 7 1,
  r 79650000 82 0, r 79665540 4 1, r 80020086 2 1, r 80020086 2 1, r 80020086 2 1, r 80020086 2 1, r 80020087 2 1, r 80020087 2 1,
  r 80040000 5 2, r 80040000 5 2, r 80040000 5 2, r 80040000 5 2, r 80040000 5 2, r 80040000 5 2, r 80053000 83 0, r 80053572 83 0,
  r 80053722 83 0, r 80053762 83 0, r 80055008 83 0, r 80055500 83 0, r 80063508 13 1, r 80063558 13 1, r 80063598 13 1, r 80063628 13 1,
  r 80063648 13 1, r 80093574 13 1, r 80093784 13 1, r 80550101 83 0, r 81040000 5 2, r 81040000 5 2, r 81040000 5 2, r 81040000 5 2,
  r 81040000 5 2, r 81040000 5 2, r 81040000 5 2, r 81040000 5 2, r 81040000 5 2, r 81040000 5 2, r 81050555 83 0, r 81052000 83 0,
  r 81053272 83 0, r 81055000 83 0, r 81055555 83 0, r 81063028 13 1, r 81063238 13 1, r 81069052 13 1, r 81070000 7 1, r 81070000 7 1,
  r 81070000 7 1, r 81070000 7 1, r 81070000 7 1, r 81070000 7 1]

/-- Entries 3301 to 3600 of /repo/bankinfo/data.go. -/
def rows11 : List Row := [
  r 81070000 7 1, r 81070000 7 1, r 81070000 7 1, r 81070000 7 1, r 81070000 7 1, r 81070000 7 1, r 81070000 7 1, r 81070000 7 1,
  r 81070024 7 1, r 81070024 7 1, r 81070024 7 1, r 81070024 7 1, r 81070024 7 1, r 81070024 7 1, r 81070024 7 1, r 81070024 7 1,
  r 81070024 7 1, r 81070024 7 1, r 81070024 7 1, r 81070024 7 1, r 81070024 7 1, r 81070024 7 1, r 81093034 13 1, r 81093054 13 1,
  r 81093274 13 1, r 82020086 2 1, r 82020087 2 1, r 82020088 2 1, r 82040000 5 2, r 82040000 5 2, r 82040000 5 2, r 82040000 5 2,
  r 82040000 5 2, r 82040000 5 2, r 82040000 5 2, r 82040000 5 2, r 82040000 5 2, r 82040000 5 2, r 82040000 5 2, r 82040000 5 2,
  r 82040000 5 2, r 82040000 5 2, r 82040000 5 2, r 82051000 84 0, r 82052020 84 0, r 82054052 84 0, r 82055000 84 0, r 82056060 84 0,
  r 82057070 84 0, r 82064038 4 1, r 82064088 4 1, r 82064188 4 1, r 82064228 4 1, r 82070000 7 1, r 82070000 7 1, r 82070000 7 1,
  r 82070000 7 1, r 82070000 7 1, r 82070000 7 1, r 82070000 7 1, r 82070000 7 1, r 82070000 7 1, r 82070000 7 1, r 82070000 7 1,
  r 82070000 7 1, r 82070000 7 1, r 82070000 7 1, r 82070000 7 1, r 82070000 7 1, r 82070000 7 1, r 82070000 7 1, r 82070000 7 1,
  r 82070000 7 1, r 82070000 7 1, r 82070000 7 1, r 82070000 7 1, r 82070000 7 1, r 82070000 7 1, r 82070000 7 1, r 82070000 7 1,
  r 82070000 7 1, r 82070000 7 1, r 82070024 7 1, r 82070024 7 1, r 82070024 7 1, r 82070024 7 1, r 82070024 7 1, r 82070024 7 1,
  r 82070024 7 1, r 82070024 7 1, r 82070024 7 1, r 82070024 7 1, r 82070024 7 1, r 82070024 7 1, r 82070024 7 1, r 82070024 7 1,
  r 82070024 7 1, r 82070024 7 1, r 82070024 7 1, r 82070024 7 1, r 82070024 7 1, r 82070024 7 1, r 82070024 7 1, r 82070024 7 1,
  r 82070024 7 1, r 82070024 7 1, r 82070024 7 1, r 82070024 7 1, r 82070024 7 1, r 82070024 7 1, r 82070024 7 1, r 82094054 4 1,
  r 83020086 2 1, r 83020086 2 1, r 83020087 2 1, r 83020088 2 1, r 83040000 5 2, r 83040000 5 2, r 83040000 5 2, r 83050000 84 0,
  r 83050200 84 0, r 83050303 84 0, r 83050505 84 0, r 83053030 84 0, r 83064488 4 1, r 83065408 4 1, r 83065410 4 1, r 83094454 4 1,
  r 83094494 13 1, r 83094495 13 1, r 84020087 2 1, r 84040000 5 2, r 84050000 84 0, r 84051010 84 0, r 84054040 84 0, r 84054722 84 0,
  r 84055050 84 0, r 84064798 4 1, r 84094754 4 1, r 84094814 4 1, r 85020086 2 1, r 85020086 2 1, r 85020086 2 1, r 85040000 5 2,
  r 85040000 5 2, r 85040000 5 2, r 85040000 5 2, r 85040000 5 2, r 85040000 5 2, r 85040000 5 2, r 85040000 5 2, r 85050100 85 0,
  r 85050300 85 0, r 85055000 85 0, r 85060000 4 1, r 85090000 4 1, r 85094984 4 1, r 85095004 4 1, r 85550000 85 0, r 85590100 4 1,
  r 85591000 4 1, r 86010090 0 0, r 86020086 2 1, r 86033300 5 2, r 86040000 5 2, r 86040000 5 2, r 86040000 5 2, r 86040000 5 2,
  r 86040000 5 2, r 86040000 5 2, r 86040000 5 2, r 86050200 85 0, r 86055462 86 0, r 86055592 85 0, r 86065468 4 1, r 86065483 4 1,
  r 86070000 7 1, r 86070000 7 1, r 86070000 7 1, r 86070000 7 1, r 86070000 7 1, r 86070000 7 1, r 86070000 7 1, r 86070000 7 1,
  r 86070000 7 1, r 86070000 7 1, r 86070000 7 1, r 86070000 7 1, r 86070000 7 1, r 86070000 7 1, r 86070000 7 1, r 86070000 7 1,
  r 86070000 7 1, r 86070000 7 1, r 86070000 7 1, r 86070000 7 1, r 86070000 7 1, r 86070000 7 1, r 86070000 7 1, r 86070000 7 1,
  r 86070000 7 1, r 86070000 7 1, r 86070000 7 1, r 86070000 7 1, r 86070024 7 1, r 86070024 7 1, r 86070024 7 1, r 86070024 7 1,
  r 86070024 7 1, r 86070024 7 1, r 86070024 7 1, r 86070024 7 1, r 86070024 7 1, r 86070024 7 1, r 86070024 7 1, r 86070024 7 1,
  r 86070024 7 1, r 86070024 7 1, r 86070024 7 1, r 86070024 7 1, r 86070024 7 1, r 86070024 7 1, r 86070024 7 1, r 86070024 7 1,
  r 86070024 7 1, r 86070024 7 1, r 86070024 7 1, r 86070024 7 1, r 86070024 7 1, r 86070024 7 1, r 86070024 7 1, r 86070024 7 1,
  r 86095484 4 1, r 86095554 4 1, r 86095604 4 1, r 87020086 2 1, r 87020086 2 1, r 87020087 2 1, r 87020088 2 1, r 87040000 5 2,
  r 87040000 5 2, r 87040000 5 2, r 87040000 5 2, r 87040000 5 2, r 87040000 5 2, r 87040000 5 2, r 87040000 5 2, r 87050000 86 0,
  r 87052000 86 0, r 87054000 86 0, r 87055000 86 0, r 87058000 86 0, r 87069075 4 1, r 87069077 4 1, r 87070000 7 1, r 87070000 7 1,
  r 87070000 7 1, r 87070000 7 1, r 87070000 7 1, r 87070000 7 1, r 87070000 7 1, r 87070000 7 1, r 87070000 7 1, r 87070000 7 1,
  r 87070000 7 1, r 87070000 7 1, r 87070000 7 1, r 87070000 7 1, r 87070000 7 1, r 87070000 7 1, r 87070000 7 1, r 87070000 7 1,
  r 87070000 7 1, r 87070000 7 1, r 87070000 7 1, r 87070000 7 1, r 87070000 7 1, r 87070000 7 1, r 87070000 7 1, r 87070000 7 1,
  r 87070000 7 1, r 87070000 7 1, r 87070000 7 1, r 87070000 7 1, r 87070000 7 1, r 87070000 7 1, r 87070000 7 1, r 87070000 7 1,
  r 87070000 7 1, r 87070000 7 1, r 87070000 7 1, r 87070000 7 1, r 87070000 7 1, r 87070000 7 1, r 87070000 7 1, r 87070000 7 1,
  r 87070000 7 1, r 87070024 7 1, r 87070024 7 1, r 87070024 7 1]

/-- Entries 3601 to 3645 of /repo/bankinfo/data.go. -/
def rows12 : List Row := [
  r 87070024 7 1, r 87070024 7 1, r 87070024 7 1, r 87070024 7 1, r 87070024 7 1, r 87070024 7 1, r 87070024 7 1, r 87070024 7 1,
  r 87070024 7 1, r 87070024 7 1, r 87070024 7 1, r 87070024 7 1, r 87070024 7 1, r 87070024 7 1, r 87070024 7 1, r 87070024 7 1,
  r 87070024 7 1, r 87070024 7 1, r 87070024 7 1, r 87070024 7 1, r 87070024 7 1, r 87070024 7 1, r 87070024 7 1, r 87070024 7 1,
  r 87070024 7 1, r 87070024 7 1, r 87070024 7 1, r 87070024 7 1, r 87070024 7 1, r 87070024 7 1, r 87070024 7 1, r 87070024 7 1,
  r 87070024 7 1, r 87070024 7 1, r 87070024 7 1, r 87070024 7 1, r 87070024 7 1, r 87070024 7 1, r 87070024 7 1, r 87070024 7 1,
  r 87095824 4 1, r 87095934 4 1, r 87095974 4 1, r 87096124 4 1, r 87096214 4 1]

/-- All entries. -/
def rows : List Row :=
  rows0 ++ rows1 ++ rows2 ++ rows3 ++ rows4 ++ rows5 ++ rows6 ++ rows7 ++ rows8 ++ rows9 ++ rows10 ++ rows11 ++ rows12

/-- /repo/bankinfo/data.go:5-36456 `data`. -/
def table : List BankInfo := rows.map Row.info

end Verif.Bankinfo
