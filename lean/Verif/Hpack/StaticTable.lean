/-! Generated by tools/gen_static.py from /repo/hpack/src/table/static.rs. Do not edit. -/
namespace Verif.Hpack

/-- `STATIC_TABLE`, /repo/hpack/src/table/static.rs:11-73. -/
def STATIC_TABLE : List (List UInt8 × List UInt8) := [
  /- 1: :authority =  -/ ([58, 97, 117, 116, 104, 111, 114, 105, 116, 121], []),
  /- 2: :method = GET -/ ([58, 109, 101, 116, 104, 111, 100], [71, 69, 84]),
  /- 3: :method = POST -/ ([58, 109, 101, 116, 104, 111, 100], [80, 79, 83, 84]),
  /- 4: :path = / -/ ([58, 112, 97, 116, 104], [47]),
  /- 5: :path = /index.html -/ ([58, 112, 97, 116, 104], [47, 105, 110, 100, 101, 120, 46, 104, 116, 109, 108]),
  /- 6: :scheme = http -/ ([58, 115, 99, 104, 101, 109, 101], [104, 116, 116, 112]),
  /- 7: :scheme = https -/ ([58, 115, 99, 104, 101, 109, 101], [104, 116, 116, 112, 115]),
  /- 8: :status = 200 -/ ([58, 115, 116, 97, 116, 117, 115], [50, 48, 48]),
  /- 9: :status = 204 -/ ([58, 115, 116, 97, 116, 117, 115], [50, 48, 52]),
  /- 10: :status = 206 -/ ([58, 115, 116, 97, 116, 117, 115], [50, 48, 54]),
  /- 11: :status = 304 -/ ([58, 115, 116, 97, 116, 117, 115], [51, 48, 52]),
  /- 12: :status = 400 -/ ([58, 115, 116, 97, 116, 117, 115], [52, 48, 48]),
  /- 13: :status = 404 -/ ([58, 115, 116, 97, 116, 117, 115], [52, 48, 52]),
  /- 14: :status = 500 -/ ([58, 115, 116, 97, 116, 117, 115], [53, 48, 48]),
  /- 15: accept-charset =  -/ ([97, 99, 99, 101, 112, 116, 45, 99, 104, 97, 114, 115, 101, 116], []),
  /- 16: accept-encoding = gzip, deflate -/ ([97, 99, 99, 101, 112, 116, 45, 101, 110, 99, 111, 100, 105, 110, 103], [103, 122, 105, 112, 44, 32, 100, 101, 102, 108, 97, 116, 101]),
  /- 17: accept-language =  -/ ([97, 99, 99, 101, 112, 116, 45, 108, 97, 110, 103, 117, 97, 103, 101], []),
  /- 18: accept-ranges =  -/ ([97, 99, 99, 101, 112, 116, 45, 114, 97, 110, 103, 101, 115], []),
  /- 19: accept =  -/ ([97, 99, 99, 101, 112, 116], []),
  /- 20: access-control-allow-origin =  -/ ([97, 99, 99, 101, 115, 115, 45, 99, 111, 110, 116, 114, 111, 108, 45, 97, 108, 108, 111, 119, 45, 111, 114, 105, 103, 105, 110], []),
  /- 21: age =  -/ ([97, 103, 101], []),
  /- 22: allow =  -/ ([97, 108, 108, 111, 119], []),
  /- 23: authorization =  -/ ([97, 117, 116, 104, 111, 114, 105, 122, 97, 116, 105, 111, 110], []),
  /- 24: cache-control =  -/ ([99, 97, 99, 104, 101, 45, 99, 111, 110, 116, 114, 111, 108], []),
  /- 25: content-disposition =  -/ ([99, 111, 110, 116, 101, 110, 116, 45, 100, 105, 115, 112, 111, 115, 105, 116, 105, 111, 110], []),
  /- 26: content-encoding =  -/ ([99, 111, 110, 116, 101, 110, 116, 45, 101, 110, 99, 111, 100, 105, 110, 103], []),
  /- 27: content-language =  -/ ([99, 111, 110, 116, 101, 110, 116, 45, 108, 97, 110, 103, 117, 97, 103, 101], []),
  /- 28: content-length =  -/ ([99, 111, 110, 116, 101, 110, 116, 45, 108, 101, 110, 103, 116, 104], []),
  /- 29: content-location =  -/ ([99, 111, 110, 116, 101, 110, 116, 45, 108, 111, 99, 97, 116, 105, 111, 110], []),
  /- 30: content-range =  -/ ([99, 111, 110, 116, 101, 110, 116, 45, 114, 97, 110, 103, 101], []),
  /- 31: content-type =  -/ ([99, 111, 110, 116, 101, 110, 116, 45, 116, 121, 112, 101], []),
  /- 32: cookie =  -/ ([99, 111, 111, 107, 105, 101], []),
  /- 33: date =  -/ ([100, 97, 116, 101], []),
  /- 34: etag =  -/ ([101, 116, 97, 103], []),
  /- 35: expect =  -/ ([101, 120, 112, 101, 99, 116], []),
  /- 36: expires =  -/ ([101, 120, 112, 105, 114, 101, 115], []),
  /- 37: from =  -/ ([102, 114, 111, 109], []),
  /- 38: host =  -/ ([104, 111, 115, 116], []),
  /- 39: if-match =  -/ ([105, 102, 45, 109, 97, 116, 99, 104], []),
  /- 40: if-modified-since =  -/ ([105, 102, 45, 109, 111, 100, 105, 102, 105, 101, 100, 45, 115, 105, 110, 99, 101], []),
  /- 41: if-none-match =  -/ ([105, 102, 45, 110, 111, 110, 101, 45, 109, 97, 116, 99, 104], []),
  /- 42: if-range =  -/ ([105, 102, 45, 114, 97, 110, 103, 101], []),
  /- 43: if-unmodified-since =  -/ ([105, 102, 45, 117, 110, 109, 111, 100, 105, 102, 105, 101, 100, 45, 115, 105, 110, 99, 101], []),
  /- 44: last-modified =  -/ ([108, 97, 115, 116, 45, 109, 111, 100, 105, 102, 105, 101, 100], []),
  /- 45: link =  -/ ([108, 105, 110, 107], []),
  /- 46: location =  -/ ([108, 111, 99, 97, 116, 105, 111, 110], []),
  /- 47: max-forwards =  -/ ([109, 97, 120, 45, 102, 111, 114, 119, 97, 114, 100, 115], []),
  /- 48: proxy-authenticate =  -/ ([112, 114, 111, 120, 121, 45, 97, 117, 116, 104, 101, 110, 116, 105, 99, 97, 116, 101], []),
  /- 49: proxy-authorization =  -/ ([112, 114, 111, 120, 121, 45, 97, 117, 116, 104, 111, 114, 105, 122, 97, 116, 105, 111, 110], []),
  /- 50: range =  -/ ([114, 97, 110, 103, 101], []),
  /- 51: referer =  -/ ([114, 101, 102, 101, 114, 101, 114], []),
  /- 52: refresh =  -/ ([114, 101, 102, 114, 101, 115, 104], []),
  /- 53: retry-after =  -/ ([114, 101, 116, 114, 121, 45, 97, 102, 116, 101, 114], []),
  /- 54: server =  -/ ([115, 101, 114, 118, 101, 114], []),
  /- 55: set-cookie =  -/ ([115, 101, 116, 45, 99, 111, 111, 107, 105, 101], []),
  /- 56: strict-transport-security =  -/ ([115, 116, 114, 105, 99, 116, 45, 116, 114, 97, 110, 115, 112, 111, 114, 116, 45, 115, 101, 99, 117, 114, 105, 116, 121], []),
  /- 57: transfer-encoding =  -/ ([116, 114, 97, 110, 115, 102, 101, 114, 45, 101, 110, 99, 111, 100, 105, 110, 103], []),
  /- 58: user-agent =  -/ ([117, 115, 101, 114, 45, 97, 103, 101, 110, 116], []),
  /- 59: vary =  -/ ([118, 97, 114, 121], []),
  /- 60: via =  -/ ([118, 105, 97], []),
  /- 61: www-authenticate =  -/ ([119, 119, 119, 45, 97, 117, 116, 104, 101, 110, 116, 105, 99, 97, 116, 101], [])]

end Verif.Hpack
